import Verif.Zcmp.Spec
import Verif.Zcmp.Model
import Verif.Mem.Props
import Verif.Control.Spec
/-
C41: stack frames.  C42: faults.  C69: returns, double moves and table jumps.
-/
namespace Verif.Zcmp
open Verif.Core Spec

variable {w : Nat}

/-! ### The register list and the adjustment: whole tables -/

theorem table_pos : ∀ rl : BitVec 4, 4 ≤ rl.toNat → ∀ r : BitVec 5, saved rl.toNat r.toNat = true →
    above rl.toNat r.toNat + 1 ≤ count rl.toNat
    ∧ (regsOf rl)[count rl.toNat - (above rl.toNat r.toNat + 1)]? = some r := by decide +kernel

theorem table_idx : ∀ rl : BitVec 4, 4 ≤ rl.toNat → ∀ i : Fin 13, ∀ r : BitVec 5, (regsOf rl)[i.val]? = some r →
    saved rl.toNat r.toNat = true ∧ i.val + (above rl.toNat r.toNat + 1) = count rl.toNat := by decide +kernel

theorem table_len : ∀ rl : BitVec 4, 4 ≤ rl.toNat → (regsOf rl).length = count rl.toNat
    ∧ 1 ≤ count rl.toNat ∧ count rl.toNat ≤ 13 ∧ above rl.toNat 1 + 1 = count rl.toNat := by decide +kernel

theorem table_nodup : ∀ rl : BitVec 4, (regsOf rl).Nodup := by decide +kernel

theorem table_mem : ∀ rl : BitVec 4, ∀ r : BitVec 5, (r ∈ regsOf rl ↔ 4 ≤ rl.toNat ∧ saved rl.toNat r.toNat = true)
    ∧ (r ∈ regsOf rl → r ≠ 0#5 ∧ r ≠ 2#5 ∧ r ≠ 10#5) := by decide +kernel

theorem table_adj : ∀ rl : BitVec 4, 4 ≤ rl.toNat →
    kStackAdjBase 32 rl = (4 * count rl.toNat + 15) / 16 * 16
    ∧ kStackAdjBase 64 rl = (8 * count rl.toNat + 15) / 16 * 16 := by decide +kernel

theorem adj_eq (hw : w = 32 ∨ w = 64) (rl : BitVec 4) (h4 : 4 ≤ rl.toNat) (spimm : Nat) :
    BitVec.ofNat w (16 * spimm) + BitVec.ofNat w (kStackAdjBase w rl) = BitVec.ofNat w (adjust w rl.toNat spimm) := by
  obtain ⟨h1, h2⟩ := table_adj rl h4
  have : kStackAdjBase w rl + 16 * spimm = adjust w rl.toNat spimm := by
    unfold adjust bytes
    rcases hw with rfl | rfl
    · rw [h1]
    · rw [h2]
  rw [← BitVec.ofNat_add, ← this, Nat.add_comm]

/-! ### Buffers of words -/

theorem ofNat_add64 (a : BitVec 64) (x y : Nat) : a + BitVec.ofNat 64 x + BitVec.ofNat 64 y = a + BitVec.ofNat 64 (x + y) := by
  rw [BitVec.add_assoc, BitVec.ofNat_add]

theorem storeWords_frame (k : Nat) (vs : List Nat) (m : Memory) (a b : BitVec 64) (hk : k * vs.length ≤ 2 ^ 64)
    (h : k * vs.length ≤ (b - a).toNat) : storeWords k m a vs b = m b := by
  induction vs generalizing m a with
  | nil => rfl
  | cons v vs ih =>
    rw [List.length_cons, Nat.mul_succ] at hk h
    have hab := (b - a).isLt
    rw [storeWords, ih _ _ (by omega), writeLE_frame _ _ _ _ (by omega) _ (by omega)]
    have e : b - (a + BitVec.ofNat 64 k) = (b - a) - BitVec.ofNat 64 k := by grind
    have : (BitVec.ofNat 64 k).toNat = k := by rw [BitVec.toNat_ofNat]; omega
    rw [e, BitVec.toNat_sub, this]
    omega

theorem storeWords_byte (k : Nat) (vs : List Nat) (m : Memory) (a : BitVec 64) (hk : k * vs.length ≤ 2 ^ 64)
    (i v : Nat) (hi : vs[i]? = some v) (j : Nat) (hj : j < k) :
    storeWords k m a vs (a + BitVec.ofNat 64 (k * i + j)) = BitVec.ofNat 8 (v / 256 ^ j) := by
  induction vs generalizing m a i with
  | nil => simp at hi
  | cons x vs ih =>
    rw [List.length_cons, Nat.mul_succ] at hk
    rw [storeWords]
    cases i with
    | zero =>
      simp only [List.getElem?_cons_zero, Option.some.injEq] at hi
      subst hi
      rw [Nat.mul_zero, Nat.zero_add, storeWords_frame _ _ _ _ _ (by omega), writeLE_byte _ _ _ _ _ (by omega) hj]
      have e : a + BitVec.ofNat 64 j - (a + BitVec.ofNat 64 k) = BitVec.ofNat 64 j - BitVec.ofNat 64 k := by
        grind
      rw [e, BitVec.toNat_sub, BitVec.toNat_ofNat, BitVec.toNat_ofNat]
      by_cases h0 : vs.length = 0
      · rw [h0, Nat.mul_zero]; omega
      · have : k * 1 ≤ k * vs.length := Nat.mul_le_mul_left k (by omega)
        omega
    | succ i =>
      rw [List.getElem?_cons_succ] at hi
      rw [show k * (i + 1) + j = k + (k * i + j) by rw [Nat.mul_succ]; omega, ← ofNat_add64]
      exact ih _ _ (by omega) i hi

theorem loadWords_get (m : Memory) (k : Nat) (a : BitVec 64) (n i : Nat) (hi : i < n) :
    (loadWords m k a n)[i]? = some (readLE m (a + BitVec.ofNat 64 (k * i)) k) := by
  induction n generalizing a i with
  | zero => omega
  | succ n ih =>
    rw [loadWords]
    cases i with
    | zero => simp
    | succ i =>
      rw [List.getElem?_cons_succ, ih _ _ (by omega), ofNat_add64, Nat.mul_succ, Nat.add_comm]

theorem loadWords_len (m : Memory) (k : Nat) (a : BitVec 64) (n : Nat) : (loadWords m k a n).length = n := by
  induction n generalizing a with
  | zero => rfl
  | succ n ih => simp [loadWords, ih]

/-! ### Register writes -/

theorem writeAll_other (f : Regs.File w) (ds : List (BitVec 5)) (vs : List (BitVec w)) (r : BitVec 5) (h : r ∉ ds) :
    Regs.read (writeAll f ds vs) r = Regs.read f r := by
  induction ds generalizing f vs with
  | nil => cases vs <;> rfl
  | cons d ds ih =>
    cases vs with
    | nil => rfl
    | cons v vs =>
      rw [writeAll, ih _ _ (fun hc => h (List.mem_cons_of_mem _ hc)), Regs.read_write]
      have : r ≠ d := fun e => h (by rw [e]; exact List.mem_cons_self)
      by_cases h0 : r = 0#5
      · rw [if_pos h0]; unfold Regs.read; rw [if_pos h0]
      · rw [if_neg h0, if_neg this]

theorem writeAll_get (f : Regs.File w) (ds : List (BitVec 5)) (vs : List (BitVec w)) (hnd : ds.Nodup)
    (h0 : 0#5 ∉ ds) (i : Nat) (r : BitVec 5) (v : BitVec w) (hd : ds[i]? = some r) (hv : vs[i]? = some v) :
    Regs.read (writeAll f ds vs) r = v := by
  induction ds generalizing f vs i with
  | nil => simp at hd
  | cons d ds ih =>
    cases vs with
    | nil => simp at hv
    | cons x vs =>
      rw [writeAll]
      obtain ⟨hn1, hn2⟩ := List.nodup_cons.1 hnd
      cases i with
      | zero =>
        simp only [List.getElem?_cons_zero, Option.some.injEq] at hd hv
        subst hd hv
        rw [writeAll_other _ _ _ _ hn1, Regs.read_write, if_neg (fun e => h0 (by rw [← e]; exact List.mem_cons_self)),
          if_pos rfl]
      | succ i =>
        rw [List.getElem?_cons_succ] at hd hv
        exact ih _ _ hn2 (fun hc => h0 (List.mem_cons_of_mem _ hc)) i hd hv

/-! ### Slots -/

/-- The lowest address of the frame as the code computes it. -/
def base (top : BitVec w) (n : Nat) : BitVec 64 := top.setWidth 64 - BitVec.ofNat 64 (w / 8 * n)

theorem slot_eq (hw : w = 32 ∨ w = 64) (top : BitVec w) (rl : Nat) (hc : count rl ≤ 13) (nw : w = 32 → NoWrap top rl)
    (i r : Nat) (hi : i + (above rl r + 1) = count rl) :
    base top (count rl) + BitVec.ofNat 64 (w / 8 * i) = slot top rl r := by
  unfold base slot bytes
  unfold NoWrap bytes at nw
  have ht := top.isLt
  apply BitVec.eq_of_toNat_eq
  rcases hw with rfl | rfl
  · have := nw rfl
    simp only [BitVec.toNat_add, BitVec.toNat_sub, BitVec.toNat_setWidth, BitVec.toNat_ofNat]
    omega
  · simp only [BitVec.toNat_add, BitVec.toNat_sub, BitVec.toNat_setWidth, BitVec.toNat_ofNat]
    omega

theorem base_slot (hw : w = 32 ∨ w = 64) (top : BitVec w) (rl : BitVec 4) (h4 : 4 ≤ rl.toNat)
    (nw : w = 32 → NoWrap top rl.toNat) : base top (regsOf rl).length = slot top rl.toNat 1 := by
  obtain ⟨h1, h2, h3, h5⟩ := table_len rl h4
  rw [h1, ← slot_eq hw top rl.toNat h3 nw 0 1 (by omega)]
  simp

theorem bytes_mul (hw : w = 32 ∨ w = 64) (n : Nat) (h : n ≤ 13) : w / 8 * n ≤ 2 ^ 64 ∧ 0 < w / 8 := by
  rcases hw with rfl | rfl <;> omega

/-! ### C41 -/

/-- **C41 (push).** Every register of the list is in its slot below the old sp, no other byte of memory
changes, sp is lowered by the adjustment and no other register changes.  On RV32 the frame must not wrap
around address zero (`C41_wrap_violated`). -/
theorem C41_push_partial (hw : w = 32 ∨ w = 64) (c : Core w) (rl : BitVec 4) (h4 : 4 ≤ rl.toNat) (spimm : Nat)
    (epc : BitVec 64) (handled : Bool) (nw : w = 32 → NoWrap (Regs.read c.regs 2#5) rl.toNat)
    (acc : Accessible c (Regs.read c.regs 2#5) rl.toNat) :
    let c' := push c (BitVec.ofNat w (16 * spimm)) rl epc handled
    (∀ r : BitVec 5, saved rl.toNat r.toNat = true →
        Mem.Spec.Holds c'.mem (slot (Regs.read c.regs 2#5) rl.toNat r.toNat) (bytes w) (Regs.read c.regs r).toNat)
    ∧ (∀ b, (∀ r : BitVec 5, saved rl.toNat r.toNat = true →
        ¬ Mem.Spec.InRange (slot (Regs.read c.regs 2#5) rl.toNat r.toNat) (bytes w) b) → c'.mem b = c.mem b)
    ∧ Regs.read c'.regs 2#5 = Regs.read c.regs 2#5 - BitVec.ofNat w (adjust w rl.toNat spimm)
    ∧ (∀ r, r ≠ 2#5 → Regs.read c'.regs r = Regs.read c.regs r)
    ∧ c'.hart = c.hart ∧ c'.limit = c.limit ∧ c'.hasC = c.hasC := by
  intro c'
  generalize hsp : Regs.read c.regs 2#5 = sp at *
  obtain ⟨t1, t2, t3, t5⟩ := table_len rl h4
  obtain ⟨b1, b2⟩ := bytes_mul hw (count rl.toNat) t3
  have hbase := base_slot hw sp rl h4 nw
  have hnf : ¬ c.limit.ult (base sp (regsOf rl).length) = true := by
    rw [hbase, Mem.ult_iff]; unfold Accessible at acc; omega
  have hc' : c' = { c with
      mem := storeWords (w / 8) c.mem (base sp (regsOf rl).length) ((regsOf rl).map (fun r => (Regs.read c.regs r).toNat))
      regs := Regs.write c.regs 2#5 (sp - BitVec.ofNat w (adjust w rl.toNat spimm)) } := by
    show push _ _ _ _ _ = _
    unfold push
    rw [← adj_eq hw rl h4, hsp]
    simp only [show sp.setWidth 64 - BitVec.ofNat 64 (w / 8 * (regsOf rl).length) = base sp (regsOf rl).length from rfl,
      if_neg hnf]
  rw [hc']
  have hlen : ((regsOf rl).map (fun r => (Regs.read c.regs r).toNat)).length = count rl.toNat := by rw [List.length_map, t1]
  refine ⟨fun r hr j hj => ?_, fun b hb => ?_, ?_, fun r hr => ?_, rfl, rfl, rfl⟩
  · obtain ⟨p1, p2⟩ := table_pos rl h4 r hr
    rw [← slot_eq hw sp rl.toNat t3 nw (count rl.toNat - (above rl.toNat r.toNat + 1)) r.toNat (by omega), ofNat_add64, ← t1]
    rw [← t1] at p2
    show (storeWords _ _ _ _ _).toNat = _
    rw [storeWords_byte (w / 8) _ _ _ (by rw [hlen]; exact b1) _ (Regs.read c.regs r).toNat (by rw [List.getElem?_map, p2]; rfl) j hj,
      BitVec.toNat_ofNat]
    rfl
  · apply storeWords_frame _ _ _ _ _ (by rw [hlen]; exact b1)
    rw [hlen]
    apply Nat.le_of_not_lt
    intro hlt
    generalize hd : (b - base sp (regsOf rl).length).toNat = d at hlt
    have hi : d / (w / 8) < count rl.toNat := Nat.div_lt_of_lt_mul hlt
    obtain ⟨r, hr⟩ : ∃ r, (regsOf rl)[d / (w / 8)]? = some r := ⟨_, List.getElem?_eq_getElem (by omega)⟩
    obtain ⟨s1, s2⟩ := table_idx rl h4 ⟨d / (w / 8), by omega⟩ r hr
    apply hb r s1
    refine ⟨d % (w / 8), Nat.mod_lt _ b2, ?_⟩
    rw [← slot_eq hw sp rl.toNat t3 nw (d / (w / 8)) r.toNat s2, ofNat_add64, Nat.div_add_mod, ← hd, ← t1]
    rw [BitVec.ofNat_toNat, BitVec.setWidth_eq, BitVec.add_comm, BitVec.sub_add_cancel]
  · rw [Regs.read_write]; rfl
  · rw [Regs.read_write]
    by_cases h0 : r = 0#5
    · rw [if_pos h0, h0]; rfl
    · rw [if_neg h0, if_neg hr]

theorem holds_read (m : Memory) (a : BitVec 64) (n v : Nat) (h : Mem.Spec.Holds m a n v) : readLE m a n = v % 256 ^ n := by
  induction n generalizing a v with
  | zero => simp [readLE, Nat.mod_one]
  | succ n ih =>
    have h0 := h 0 (by omega)
    rw [show a + BitVec.ofNat 64 0 = a by simp] at h0
    unfold Mem.Spec.byteOf at h0
    rw [readLE, h0, ih (a + 1#64) (v / 256), Nat.pow_succ, Nat.mul_comm (256 ^ n), Nat.mod_mul]
    · simp
    · intro i hi
      have := h (i + 1) (by omega)
      rw [Nat.add_comm i 1, ← ofNat_add64] at this
      show (m (a + BitVec.ofNat 64 1 + BitVec.ofNat 64 i)).toNat = _
      rw [this]
      unfold Mem.Spec.byteOf
      rw [Nat.add_comm 1 i, Nat.pow_succ, Nat.mul_comm (256 ^ i), Nat.div_div_eq_div_mul]

/-- What a successful pop computes. -/
theorem pop_ok (hw : w = 32 ∨ w = 64) (c : Core w) (rl : BitVec 4) (h4 : 4 ≤ rl.toNat) (spimm : Nat) (junk : List (BitVec w))
    (epc : BitVec 64) (handled : Bool) (top : BitVec w)
    (htop : top = Regs.read c.regs 2#5 + BitVec.ofNat w (adjust w rl.toNat spimm))
    (nw : w = 32 → NoWrap top rl.toNat) (acc : Accessible c top rl.toNat) :
    pop c (BitVec.ofNat w (16 * spimm)) rl junk epc handled = { c with
      regs := Regs.write (writeAll c.regs (regsOf rl)
        ((loadWords c.mem (w / 8) (base top (regsOf rl).length) (regsOf rl).length).map (BitVec.ofNat w))) 2#5 top } := by
  obtain ⟨t1, t2, t3, t5⟩ := table_len rl h4
  have hbase := base_slot hw top rl h4 nw
  have hnf : ¬ c.limit.ult (base top (regsOf rl).length) = true := by
    rw [hbase, Mem.ult_iff]; unfold Accessible at acc; omega
  have htop' : Regs.read c.regs 2#5 + (BitVec.ofNat w (16 * spimm) + BitVec.ofNat w (kStackAdjBase w rl)) = top := by
    rw [adj_eq hw rl h4, htop]
  unfold pop popHelper
  simp only [htop', show top.setWidth 64 - BitVec.ofNat 64 (w / 8 * (regsOf rl).length) = base top (regsOf rl).length from rfl,
    if_neg hnf]
  simp

/-- **C41 (pop).** Every register of the list is loaded from its slot, sp is raised by the adjustment, and
nothing else changes.  Same restriction on RV32. -/
theorem C41_pop_partial (hw : w = 32 ∨ w = 64) (c : Core w) (rl : BitVec 4) (h4 : 4 ≤ rl.toNat) (spimm : Nat) (junk : List (BitVec w))
    (epc : BitVec 64) (handled : Bool) (top : BitVec w)
    (htop : top = Regs.read c.regs 2#5 + BitVec.ofNat w (adjust w rl.toNat spimm))
    (nw : w = 32 → NoWrap top rl.toNat) (acc : Accessible c top rl.toNat) :
    let c' := pop c (BitVec.ofNat w (16 * spimm)) rl junk epc handled
    (∀ r : BitVec 5, saved rl.toNat r.toNat = true →
        Mem.Spec.Holds c.mem (slot top rl.toNat r.toNat) (bytes w) (Regs.read c'.regs r).toNat)
    ∧ Regs.read c'.regs 2#5 = top
    ∧ (∀ r : BitVec 5, saved rl.toNat r.toNat = false → r ≠ 2#5 → Regs.read c'.regs r = Regs.read c.regs r)
    ∧ c'.mem = c.mem ∧ c'.hart = c.hart ∧ c'.limit = c.limit ∧ c'.hasC = c.hasC := by
  intro c'
  have hc' := pop_ok hw c rl h4 spimm junk epc handled top htop nw acc
  have e : c' = _ := hc'
  rw [e]
  obtain ⟨t1, t2, t3, t5⟩ := table_len rl h4
  refine ⟨fun r hr => ?_, ?_, fun r hr h2 => ?_, rfl, rfl, rfl, rfl⟩
  · obtain ⟨p1, p2⟩ := table_pos rl h4 r hr
    have hm := (table_mem rl r).1.2 ⟨h4, hr⟩
    obtain ⟨n0, n2, -⟩ := (table_mem rl r).2 hm
    rw [Regs.read_write, if_neg n0, if_neg n2]
    have hget := writeAll_get c.regs (regsOf rl)
      ((loadWords c.mem (w / 8) (base top (regsOf rl).length) (regsOf rl).length).map (BitVec.ofNat w))
      (table_nodup rl) (fun hc => ((table_mem rl 0#5).2 hc).1 rfl) _ r _ p2
      (by rw [List.getElem?_map, loadWords_get _ _ _ _ _ (by omega)]; rfl)
    rw [hget, t1, slot_eq hw top rl.toNat t3 nw _ r.toNat (by omega), BitVec.toNat_ofNat]
    intro j hj
    have hlt := readLE_lt c.mem (slot top rl.toNat r.toNat) (w / 8)
    have : 256 ^ (w / 8) = 2 ^ w := by rcases hw with rfl | rfl <;> rfl
    rw [Nat.mod_eq_of_lt (by omega), ← readLE_byte _ _ (w / 8) _ hj]; rfl
  · rw [Regs.read_write]; rfl
  · rw [Regs.read_write]
    by_cases h0 : r = 0#5
    · rw [if_pos h0, h0]; rfl
    · rw [if_neg h0, if_neg h2]
      apply writeAll_other
      intro hc
      rw [((table_mem rl r).1.1 hc).2] at hr
      cases hr

/-- **C41 (push then pop).** Whatever happens to the registers in between, a pop with the same operands and
the same sp restores sp and every register of the list. -/
theorem C41_roundtrip_partial (hw : w = 32 ∨ w = 64) (c : Core w) (rl : BitVec 4) (h4 : 4 ≤ rl.toNat) (spimm : Nat)
    (junk : List (BitVec w)) (epc epc' : BitVec 64) (handled handled' : Bool)
    (nw : w = 32 → NoWrap (Regs.read c.regs 2#5) rl.toNat) (acc : Accessible c (Regs.read c.regs 2#5) rl.toNat)
    (d : Core w) (hm : d.mem = (push c (BitVec.ofNat w (16 * spimm)) rl epc handled).mem) (hl : d.limit = c.limit)
    (hs : Regs.read d.regs 2#5 = Regs.read (push c (BitVec.ofNat w (16 * spimm)) rl epc handled).regs 2#5) :
    let c' := pop d (BitVec.ofNat w (16 * spimm)) rl junk epc' handled'
    Regs.read c'.regs 2#5 = Regs.read c.regs 2#5
    ∧ ∀ r : BitVec 5, saved rl.toNat r.toNat = true → Regs.read c'.regs r = Regs.read c.regs r := by
  intro c'
  obtain ⟨h1, -, h3, -⟩ := C41_push_partial hw c rl h4 spimm epc handled nw acc
  have htop : Regs.read c.regs 2#5 = Regs.read d.regs 2#5 + BitVec.ofNat w (adjust w rl.toNat spimm) := by
    rw [hs, h3, BitVec.sub_add_cancel]
  obtain ⟨p1, p2, -⟩ := C41_pop_partial hw d rl h4 spimm junk epc' handled' (Regs.read c.regs 2#5) htop nw
    (by unfold Accessible at *; rw [hl]; exact acc)
  refine ⟨p2, fun r hr => ?_⟩
  have q1 := holds_read _ _ _ _ (h1 r hr)
  have q2 := holds_read _ _ _ _ (p1 r hr)
  rw [hm] at q2
  rw [q1] at q2
  have hb : 256 ^ bytes w = 2 ^ w := by rcases hw with rfl | rfl <;> rfl
  rw [hb, Nat.mod_eq_of_lt (BitVec.isLt _), Nat.mod_eq_of_lt (BitVec.isLt _)] at q2
  exact BitVec.eq_of_toNat_eq q2.symm

/-- C41 is violated on RV32 for frames that wrap around address zero: addresses are formed in 64 bits, so
instead of the top of the 32-bit address space the store goes to an address above any limit and faults. -/
theorem C41_wrap_violated (c : Core 32) (rl : BitVec 4) (h4 : 4 ≤ rl.toNat) (spimm6 : BitVec 32) (epc : BitVec 64)
    (handled : Bool) (hsp : (Regs.read c.regs 2#5).toNat < 4 * count rl.toNat) (hl : c.limit.toNat ≤ (Mem.maxSize 32).toNat) :
    ∃ a : BitVec 64, a.toNat = 2 ^ 64 + (Regs.read c.regs 2#5).toNat - 4 * count rl.toNat
      ∧ (push c spimm6 rl epc handled).hart = c.hart.trap false a 7#64 epc handled
      ∧ (push c spimm6 rl epc handled).mem = c.mem := by
  obtain ⟨t1, t2, t3, t5⟩ := table_len rl h4
  generalize hq : Regs.read c.regs 2#5 = sp at *
  have ha : (base sp (regsOf rl).length).toNat = 2 ^ 64 + sp.toNat - 4 * count rl.toNat := by
    unfold base
    rw [t1]
    simp only [BitVec.toNat_sub, BitVec.toNat_setWidth, BitVec.toNat_ofNat]
    omega
  have hm : (Mem.maxSize 32).toNat = 0x3fffffffff := rfl
  have hf : c.limit.ult (base sp (regsOf rl).length) = true := by rw [Mem.ult_iff, ha]; omega
  refine ⟨base sp (regsOf rl).length, ha, ?_⟩
  unfold push
  simp only [hq, show sp.setWidth 64 - BitVec.ofNat 64 (32 / 8 * (regsOf rl).length) = base sp (regsOf rl).length from rfl, if_pos hf]
  exact ⟨rfl, rfl⟩

/-- C41 is violated by the RV32 instruction description (riscv_zc.isa:334), which lists sp before the register
list while the semantic function expects it after: the slot of ra is popped into sp, and the new sp value goes
to the last register of the list. -/
theorem C41_operands_violated (c : Core 32) (rl : BitVec 4) (h4 : 4 ≤ rl.toNat) (spimm : Nat) (junk : List (BitVec 32))
    (epc : BitVec 64) (handled : Bool) (top : BitVec 32)
    (htop : top = Regs.read c.regs 2#5 + BitVec.ofNat 32 (adjust 32 rl.toNat spimm))
    (nw : NoWrap top rl.toNat) (acc : Accessible c top rl.toNat) :
    let c' := pop32 c (BitVec.ofNat 32 (16 * spimm)) rl junk epc handled
    Mem.Spec.Holds c.mem (slot top rl.toNat 1) 4 (Regs.read c'.regs 2#5).toNat
    ∧ ∃ r, saved rl.toNat r.toNat = true ∧ (∀ s : BitVec 5, saved rl.toNat s.toNat = true → s.toNat ≤ r.toNat) ∧ Regs.read c'.regs r = top := by
  intro c'
  obtain ⟨t1, t2, t3, t5⟩ := table_len rl h4
  have hbase := base_slot (Or.inl rfl) top rl h4 (fun _ => nw)
  have hnf : ¬ c.limit.ult (base top (regsOf rl).length) = true := by
    rw [hbase, Mem.ult_iff]; unfold Accessible at acc; omega
  have htop' : Regs.read c.regs 2#5 + (BitVec.ofNat 32 (16 * spimm) + BitVec.ofNat 32 (kStackAdjBase 32 rl)) = top := by
    rw [adj_eq (Or.inl rfl) rl h4, htop]
  have htab : ∀ rl : BitVec 4, 4 ≤ rl.toNat → ∃ ds, (2#5 :: regsOf rl).take (regsOf rl).length = 2#5 :: ds ∧ 2#5 ∉ ds
      ∧ ds.Nodup ∧ 0#5 ∉ ds := by
    intro rl h
    refine ⟨(regsOf rl).take ((regsOf rl).length - 1), ?_⟩
    revert rl
    decide +kernel
  have htab2 : ∀ rl : BitVec 4, 4 ≤ rl.toNat → ((2#5 :: regsOf rl).getD (regsOf rl).length 0#5) ≠ 0#5
      ∧ ((2#5 :: regsOf rl).getD (regsOf rl).length 0#5) ≠ 2#5
      ∧ saved rl.toNat ((2#5 :: regsOf rl).getD (regsOf rl).length 0#5).toNat = true
      ∧ ∀ s : BitVec 5, saved rl.toNat s.toNat = true → s.toNat ≤ ((2#5 :: regsOf rl).getD (regsOf rl).length 0#5).toNat := by
    decide +kernel
  obtain ⟨ds, hds, hd2, hdn, hd0⟩ := htab rl h4
  obtain ⟨l0, l2, ls, lmax⟩ := htab2 rl h4
  generalize hlast : (2#5 :: regsOf rl).getD (regsOf rl).length 0#5 = last at l0 l2 ls lmax
  have hc' : c' = { c with
      regs := Regs.write (writeAll c.regs (2#5 :: ds)
        ((loadWords c.mem 4 (base top (regsOf rl).length) (regsOf rl).length).map (BitVec.ofNat 32)))
          last top } := by
    show pop32 _ _ _ _ _ _ = _
    unfold pop32 popHelper
    simp only [htop', show top.setWidth 64 - BitVec.ofNat 64 (32 / 8 * (regsOf rl).length) = base top (regsOf rl).length from rfl,
      if_neg hnf, hds, hlast]
  rw [hc']
  refine ⟨?_, last, ls, lmax, by rw [Regs.read_write, if_neg l0, if_pos rfl]⟩
  rw [Regs.read_write, if_neg (by decide), if_neg (fun e => l2 e.symm)]
  have hget := writeAll_get c.regs (2#5 :: ds)
      ((loadWords c.mem 4 (base top (regsOf rl).length) (regsOf rl).length).map (BitVec.ofNat 32))
      (List.nodup_cons.2 ⟨hd2, hdn⟩) (fun hc => by rcases List.mem_cons.1 hc with h | h; exact absurd h (by decide); exact hd0 h)
      0 2#5 _ rfl (by rw [List.getElem?_map, loadWords_get _ _ _ _ _ (by omega)]; rfl)
  rw [hget, Nat.mul_zero, show base top (regsOf rl).length + BitVec.ofNat 64 0 = base top (regsOf rl).length by simp, hbase,
    BitVec.toNat_ofNat]
  intro j hj
  have hlt := readLE_lt c.mem (slot top rl.toNat 1) 4
  rw [Nat.mod_eq_of_lt (by omega), ← readLE_byte _ _ 4 _ hj]; rfl

/-! ### C42 -/

/-- What a faulting push computes. -/
theorem push_fault (c : Core w) (rl : BitVec 4) (spimm6 : BitVec w) (epc : BitVec 64) (handled : Bool)
    (hf : c.limit.toNat < (base (Regs.read c.regs 2#5) (regsOf rl).length).toNat) :
    push c spimm6 rl epc handled = { c with
      hart := c.hart.trap false (base (Regs.read c.regs 2#5) (regsOf rl).length) 7#64 epc handled
      regs := Regs.write c.regs 2#5 (Regs.read c.regs 2#5 - (spimm6 + BitVec.ofNat w (kStackAdjBase w rl))) } := by
  rw [← Mem.ult_iff] at hf
  unfold push
  simp only [show (Regs.read c.regs 2#5).setWidth 64 - BitVec.ofNat 64 (w / 8 * (regsOf rl).length)
    = base (Regs.read c.regs 2#5) (regsOf rl).length from rfl, if_pos hf]
  rfl

/-- The frame lies above the limit, in the code's arithmetic. -/
def Faults (c : Core w) (top : BitVec w) (rl : BitVec 4) : Prop := c.limit.toNat < (base top (regsOf rl).length).toNat

theorem adj_ne (hw : w = 32 ∨ w = 64) (rl : BitVec 4) (h4 : 4 ≤ rl.toNat) (spimm : Nat) (hs : spimm < 4) :
    BitVec.ofNat w (adjust w rl.toNat spimm) ≠ 0#w := by
  obtain ⟨-, t2, t3, -⟩ := table_len rl h4
  intro h
  have := congrArg BitVec.toNat h
  unfold adjust bytes at this
  rcases hw with rfl | rfl <;> simp only [BitVec.toNat_ofNat] at this <;> omega

/-- C42 (push) is violated by every faulting push: sp is lowered although the store trapped. -/
theorem C42_push_violated (hw : w = 32 ∨ w = 64) (c : Core w) (rl : BitVec 4) (h4 : 4 ≤ rl.toNat) (spimm : Nat) (hs : spimm < 4)
    (epc : BitVec 64) (handled : Bool) (hf : Faults c (Regs.read c.regs 2#5) rl) :
    Regs.read (push c (BitVec.ofNat w (16 * spimm)) rl epc handled).regs 2#5
      = Regs.read c.regs 2#5 - BitVec.ofNat w (adjust w rl.toNat spimm)
    ∧ Regs.read (push c (BitVec.ofNat w (16 * spimm)) rl epc handled).regs 2#5 ≠ Regs.read c.regs 2#5 := by
  have h : Regs.read (push c (BitVec.ofNat w (16 * spimm)) rl epc handled).regs 2#5
      = Regs.read c.regs 2#5 - BitVec.ofNat w (adjust w rl.toNat spimm) := by
    rw [push_fault c rl _ epc handled hf, adj_eq hw rl h4]
    simp only [Regs.read_write]
    rfl
  refine ⟨h, ?_⟩
  rw [h]
  intro hc
  apply adj_ne hw rl h4 spimm hs
  have e : BitVec.ofNat w (adjust w rl.toNat spimm) = Regs.read c.regs 2#5 - (Regs.read c.regs 2#5 - BitVec.ofNat w (adjust w rl.toNat spimm)) := by
    grind
  rw [e, hc]
  simp

/-- What does hold of a faulting push: the store access fault is raised with the address of the frame, and
memory and every register but sp keep their values. -/
theorem C42_push_partial (c : Core w) (rl : BitVec 4) (spimm6 : BitVec w) (epc : BitVec 64) (handled : Bool)
    (hf : Faults c (Regs.read c.regs 2#5) rl) :
    let c' := push c spimm6 rl epc handled
    c'.hart = c.hart.trap false (base (Regs.read c.regs 2#5) (regsOf rl).length) 7#64 epc handled
    ∧ c'.mem = c.mem ∧ (∀ r, r ≠ 2#5 → Regs.read c'.regs r = Regs.read c.regs r) := by
  intro c'
  have e : c' = _ := push_fault c rl spimm6 epc handled hf
  rw [e]
  refine ⟨rfl, rfl, fun r hr => ?_⟩
  rw [Regs.read_write]
  by_cases h0 : r = 0#5
  · rw [if_pos h0, h0]; rfl
  · rw [if_neg h0, if_neg hr]

/-- What a faulting pop computes. -/
theorem pop_fault (hw : w = 32 ∨ w = 64) (c : Core w) (rl : BitVec 4) (h4 : 4 ≤ rl.toNat) (spimm : Nat) (junk : List (BitVec w))
    (epc : BitVec 64) (handled : Bool) (top : BitVec w)
    (htop : top = Regs.read c.regs 2#5 + BitVec.ofNat w (adjust w rl.toNat spimm)) (hf : Faults c top rl) :
    pop c (BitVec.ofNat w (16 * spimm)) rl junk epc handled = { c with
      hart := c.hart.trap false (base top (regsOf rl).length) 5#64 epc handled
      regs := Regs.write (writeAll c.regs (regsOf rl) junk) 2#5 top } := by
  have hf' : c.limit.ult (base top (regsOf rl).length) = true := (Mem.ult_iff _ _).2 hf
  have htop' : Regs.read c.regs 2#5 + (BitVec.ofNat w (16 * spimm) + BitVec.ofNat w (kStackAdjBase w rl)) = top := by
    rw [adj_eq hw rl h4, htop]
  unfold pop popHelper
  simp only [htop', show top.setWidth 64 - BitVec.ofNat 64 (w / 8 * (regsOf rl).length) = base top (regsOf rl).length from rfl,
    if_pos hf']
  simp [raise, Mem.kLoadFault]

/-- C42 (pop) is violated by every faulting pop: sp is raised, and each register of the list is overwritten
with whatever the unused data buffer held. -/
theorem C42_pop_violated (hw : w = 32 ∨ w = 64) (c : Core w) (rl : BitVec 4) (h4 : 4 ≤ rl.toNat) (spimm : Nat) (hs : spimm < 4)
    (junk : List (BitVec w)) (hj : junk.length = (regsOf rl).length) (epc : BitVec 64) (handled : Bool) (top : BitVec w)
    (htop : top = Regs.read c.regs 2#5 + BitVec.ofNat w (adjust w rl.toNat spimm)) (hf : Faults c top rl) :
    let c' := pop c (BitVec.ofNat w (16 * spimm)) rl junk epc handled
    Regs.read c'.regs 2#5 = top ∧ top ≠ Regs.read c.regs 2#5
    ∧ ∀ i (h : i < (regsOf rl).length), Regs.read c'.regs ((regsOf rl)[i]) = junk[i] := by
  intro c'
  have e : c' = _ := pop_fault hw c rl h4 spimm junk epc handled top htop hf
  rw [e]
  refine ⟨by rw [Regs.read_write]; rfl, ?_, fun i hi => ?_⟩
  · rw [htop]
    intro hc
    apply adj_ne hw rl h4 spimm hs
    have e : BitVec.ofNat w (adjust w rl.toNat spimm) = Regs.read c.regs 2#5 + BitVec.ofNat w (adjust w rl.toNat spimm) - Regs.read c.regs 2#5 := by
      grind
    rw [e, hc]
    simp
  · have hm : (regsOf rl)[i] ∈ regsOf rl := List.getElem_mem hi
    obtain ⟨n0, n2, -⟩ := (table_mem rl _).2 hm
    rw [Regs.read_write, if_neg n0, if_neg n2]
    exact writeAll_get c.regs (regsOf rl) junk (table_nodup rl) (fun hc => ((table_mem rl 0#5).2 hc).1 rfl) i _ _
      (List.getElem?_eq_getElem hi) (List.getElem?_eq_getElem (by omega))

/-- What does hold of a faulting pop: the load access fault is raised, and memory and the registers outside
the list keep their values, except for sp. -/
theorem C42_pop_partial (hw : w = 32 ∨ w = 64) (c : Core w) (rl : BitVec 4) (h4 : 4 ≤ rl.toNat) (spimm : Nat)
    (junk : List (BitVec w)) (epc : BitVec 64) (handled : Bool) (top : BitVec w)
    (htop : top = Regs.read c.regs 2#5 + BitVec.ofNat w (adjust w rl.toNat spimm)) (hf : Faults c top rl) :
    let c' := pop c (BitVec.ofNat w (16 * spimm)) rl junk epc handled
    c'.hart = c.hart.trap false (base top (regsOf rl).length) 5#64 epc handled ∧ c'.mem = c.mem
    ∧ ∀ r : BitVec 5, saved rl.toNat r.toNat = false → r ≠ 2#5 → Regs.read c'.regs r = Regs.read c.regs r := by
  intro c'
  have e : c' = _ := pop_fault hw c rl h4 spimm junk epc handled top htop hf
  rw [e]
  refine ⟨rfl, rfl, fun r hr h2 => ?_⟩
  rw [Regs.read_write]
  by_cases h0 : r = 0#5
  · rw [if_pos h0, h0]; rfl
  · rw [if_neg h0, if_neg h2]
    apply writeAll_other
    intro hc
    rw [((table_mem rl r).1.1 hc).2] at hr
    cases hr

/-! ### C69 -/

/-- **C69 (double moves).** cm.mvsa01 with two different s-registers copies a0 and a1 into them and changes
nothing else. -/
theorem C69_mvsa01 (f : Regs.File w) (r1 r2 : BitVec 3) (hne : r1 ≠ r2) :
    Regs.read (mvsa01 f r1 r2) (BitVec.ofNat 5 (sregNum r1.toNat)) = Regs.read f 10#5
    ∧ Regs.read (mvsa01 f r1 r2) (BitVec.ofNat 5 (sregNum r2.toNat)) = Regs.read f 11#5
    ∧ ∀ r : BitVec 5, r.toNat ≠ sregNum r1.toNat → r.toNat ≠ sregNum r2.toNat → Regs.read (mvsa01 f r1 r2) r = Regs.read f r := by
  have t1 : ∀ r : BitVec 3, sreg r = BitVec.ofNat 5 (sregNum r.toNat) ∧ sreg r ≠ 0#5 ∧ 11#5 ≠ sreg r
      ∧ (sreg r).toNat = sregNum r.toNat := by decide
  have t2 : ∀ r s : BitVec 3, r ≠ s → sreg r ≠ sreg s := by decide
  obtain ⟨a1, a2, a3, a4⟩ := t1 r1
  obtain ⟨b1, b2, b3, b4⟩ := t1 r2
  have hd := t2 r1 r2 hne
  rw [← a1, ← b1, ← a4, ← b4]
  unfold mvsa01 mvTwo
  refine ⟨?_, ?_, fun r h1 h2 => ?_⟩
  · simp only [Regs.read_write, if_neg a2, if_neg hd]; simp
  · simp only [Regs.read_write, if_neg b2, if_true, if_neg a3]; simp
  · have n1 : r ≠ sreg r1 := fun e => h1 (by rw [e])
    have n2 : r ≠ sreg r2 := fun e => h2 (by rw [e])
    simp only [Regs.read_write, if_neg n1, if_neg n2]
    by_cases h0 : r = 0#5
    · rw [if_pos h0, h0]; rfl
    · rw [if_neg h0]; simp [h0]

/-- cm.mva01s copies two s-registers, which may coincide, into a0 and a1 and changes nothing else. -/
theorem C69_mva01s (f : Regs.File w) (r1 r2 : BitVec 3) :
    Regs.read (mva01s f r1 r2) 10#5 = Regs.read f (BitVec.ofNat 5 (sregNum r1.toNat))
    ∧ Regs.read (mva01s f r1 r2) 11#5 = Regs.read f (BitVec.ofNat 5 (sregNum r2.toNat))
    ∧ ∀ r : BitVec 5, r ≠ 10#5 → r ≠ 11#5 → Regs.read (mva01s f r1 r2) r = Regs.read f r := by
  have t1 : ∀ r : BitVec 3, sreg r = BitVec.ofNat 5 (sregNum r.toNat) ∧ sreg r ≠ 0#5 ∧ sreg r ≠ 10#5 := by decide
  obtain ⟨a1, a2, a3⟩ := t1 r1
  obtain ⟨b1, b2, b3⟩ := t1 r2
  rw [← a1, ← b1]
  unfold mva01s mvTwo
  refine ⟨?_, ?_, fun r h1 h2 => ?_⟩
  · simp [Regs.read_write]
  · simp only [Regs.read_write, if_neg b2, if_neg b3]; simp
  · simp only [Regs.read_write, if_neg h1, if_neg h2]
    by_cases h0 : r = 0#5
    · rw [if_pos h0, h0]; rfl
    · rw [if_neg h0]; simp [h0]

/-- **C69 (return).** cm.popret is cm.pop followed by a jump to the restored ra, provided ra is even. -/
theorem C69_popret_partial (c : Core w) (spimm6 : BitVec w) (rl : BitVec 4) (junk : List (BitVec w)) (epc : BitVec 64) (handled : Bool)
    (heven : (Regs.read (pop c spimm6 rl junk epc handled).regs 1#5).toNat % 2 = 0) :
    let p := pop c spimm6 rl junk epc handled
    let c' := popRet c spimm6 rl junk epc handled
    Control.Spec.Goes p c' (evenTarget (Regs.read p.regs 1#5)) ∧ c'.regs = p.regs := by
  intro p c'
  have : evenTarget (Regs.read p.regs 1#5) = Regs.read p.regs 1#5 := by
    unfold evenTarget
    rw [Nat.div_mul_cancel (Nat.dvd_of_mod_eq_zero heven), BitVec.ofNat_toNat, BitVec.setWidth_eq]
  rw [this]
  exact ⟨⟨rfl, rfl, rfl, rfl⟩, rfl⟩

/-- cm.popretz also clears a0. -/
theorem C69_popretz_partial (c : Core w) (spimm6 : BitVec w) (rl : BitVec 4) (junk : List (BitVec w)) (epc : BitVec 64) (handled : Bool)
    (heven : (Regs.read (pop c spimm6 rl junk epc handled).regs 1#5).toNat % 2 = 0) :
    let p := pop c spimm6 rl junk epc handled
    let c' := popRetz c spimm6 rl junk epc handled
    Control.Spec.Goes p c' (evenTarget (Regs.read p.regs 1#5)) ∧ Regs.read c'.regs 10#5 = 0#w
      ∧ ∀ r, r ≠ 10#5 → Regs.read c'.regs r = Regs.read p.regs r := by
  intro p c'
  have h1 : Regs.read c'.regs 1#5 = Regs.read p.regs 1#5 := by
    show Regs.read (Regs.write p.regs 10#5 0#w) 1#5 = _
    rw [Regs.read_write]; rfl
  have : evenTarget (Regs.read p.regs 1#5) = Regs.read c'.regs 1#5 := by
    rw [h1]
    unfold evenTarget
    rw [Nat.div_mul_cancel (Nat.dvd_of_mod_eq_zero heven), BitVec.ofNat_toNat, BitVec.setWidth_eq]
  rw [this]
  refine ⟨⟨rfl, rfl, rfl, rfl⟩, ?_, fun r hr => ?_⟩
  · show Regs.read (Regs.write p.regs 10#5 0#w) 10#5 = _
    rw [Regs.read_write]; rfl
  · show Regs.read (Regs.write p.regs 10#5 0#w) r = _
    rw [Regs.read_write]
    by_cases h0 : r = 0#5
    · rw [if_pos h0, h0]; rfl
    · rw [if_neg h0, if_neg hr]

/-- C69 is violated for an odd return address: bit 0 is not cleared. -/
theorem C69_popret_violated (c : Core w) (spimm6 : BitVec w) (rl : BitVec 4) (junk : List (BitVec w)) (epc : BitVec 64) (handled : Bool)
    (hodd : (Regs.read (pop c spimm6 rl junk epc handled).regs 1#5).toNat % 2 = 1) :
    (popRet c spimm6 rl junk epc handled).hart.pc ≠ evenTarget (Regs.read (pop c spimm6 rl junk epc handled).regs 1#5) := by
  show Regs.read (pop c spimm6 rl junk epc handled).regs 1#5 ≠ _
  generalize Regs.read (pop c spimm6 rl junk epc handled).regs 1#5 = v at *
  intro h
  have h' := congrArg BitVec.toNat h
  unfold evenTarget at h'
  have := v.isLt
  rw [BitVec.toNat_ofNat, Nat.mod_eq_of_lt (by omega)] at h'
  omega

/-- **C69 (table jumps).** With jvt in jump table mode and the entry accessible, cm.jt goes to the address in
the entry, provided it is even; cm.jalt also links. -/
theorem C69_jt_partial (hw : w = 32 ∨ w = 64) (c : Core w) (jvt : BitVec 64) (hm : jvt.toNat % 64 = 0) (index : BitVec 8)
    (junk : BitVec w) (epc : BitVec 64) (size : Nat) (handled : Bool) (t : BitVec w)
    (hacc : (entryAddr w jvt index).toNat ≤ c.limit.toNat)
    (ht : Mem.Spec.Holds c.mem (entryAddr w jvt index) (bytes w) t.toNat) (heven : t.toNat % 2 = 0) :
    (Control.Spec.Goes c (jt c jvt index junk epc handled) (evenTarget t) ∧ (jt c jvt index junk epc handled).regs = c.regs)
    ∧ (Control.Spec.Goes c (jalt c jvt index junk epc size handled) (evenTarget t)
        ∧ Control.Spec.IsLink (Regs.read (jalt c jvt index junk epc size handled).regs 1#5) epc size
        ∧ ∀ r, r ≠ 1#5 → Regs.read (jalt c jvt index junk epc size handled).regs r = Regs.read c.regs r) := by
  have he : evenTarget t = t := by
    unfold evenTarget
    rw [Nat.div_mul_cancel (Nat.dvd_of_mod_eq_zero heven), BitVec.ofNat_toNat, BitVec.setWidth_eq]
  have h1 : jvt &&& 0x3f#64 = 0#64 := by
    apply BitVec.eq_of_toNat_eq
    rw [BitVec.toNat_and]
    show jvt.toNat &&& (2 ^ 6 - 1) = 0
    rw [Nat.and_two_pow_sub_one_eq_mod]; exact hm
  have h2 : jvt &&& ~~~0x3f#64 = jvt := by
    have : jvt = (jvt &&& ~~~0x3f#64) ||| (jvt &&& 0x3f#64) := by
      rw [← BitVec.and_or_distrib_left, show (~~~0x3f#64 ||| 0x3f#64) = BitVec.allOnes 64 from rfl, BitVec.and_allOnes]
    rw [h1] at this
    simpa using this.symm
  have h3 : (((jvt &&& ~~~0x3f#64) + BitVec.ofNat 64 (index.toNat * (w / 8))).setWidth w).setWidth 64 = entryAddr w jvt index := by
    rw [h2]
    unfold entryAddr bytes
    apply BitVec.eq_of_toNat_eq
    have hi := index.isLt
    have hj := jvt.isLt
    rcases hw with rfl | rfl <;> simp only [BitVec.toNat_add, BitVec.toNat_setWidth, BitVec.toNat_ofNat] <;> omega
  have h4 : ¬ c.limit.ult (entryAddr w jvt index) = true := by rw [Mem.ult_iff]; omega
  have h5 : BitVec.ofNat w (readLE c.mem (entryAddr w jvt index) (w / 8)) = t := by
    rw [show readLE c.mem (entryAddr w jvt index) (w / 8) = _ from holds_read _ _ _ _ ht]
    have hb : 256 ^ (w / 8) = 2 ^ w := by rcases hw with rfl | rfl <;> rfl
    rw [hb, Nat.mod_eq_of_lt t.isLt, BitVec.ofNat_toNat, BitVec.setWidth_eq]
  have hj : jt c jvt index junk epc handled = { c with hart := { c.hart with pc := t, branch := true } } := by
    unfold jt
    rw [if_neg (by rw [h1]; simp)]
    simp only [h3, if_neg h4, h5]
  rw [he]
  refine ⟨by rw [hj]; exact ⟨⟨rfl, rfl, rfl, rfl⟩, rfl⟩, ?_⟩
  unfold jalt
  rw [hj]
  refine ⟨⟨rfl, rfl, rfl, rfl⟩, ?_, fun r hr => ?_⟩
  · simp only [Regs.read_write]
    show ((epc + BitVec.ofNat 64 size).setWidth w).toNat = _
    rw [BitVec.toNat_setWidth, BitVec.toNat_add, BitVec.toNat_ofNat]
    rcases hw with rfl | rfl <;> omega
  · simp only [Regs.read_write, if_neg hr]
    by_cases h0 : r = 0#5
    · rw [if_pos h0, h0]; rfl
    · rw [if_neg h0]

/-- C69 is violated when the load of the entry faults: the access fault is overwritten by a jump to whatever
the unused data buffer held, and cm.jalt links as well. -/
theorem C69_jt_violated (c : Core 64) (jvt : BitVec 64) (hm : jvt &&& 0x3f#64 = 0#64) (index : BitVec 8)
    (junk : BitVec 64) (epc : BitVec 64) (size : Nat) (handled : Bool)
    (hf : c.limit.toNat < ((jvt &&& ~~~0x3f#64) + BitVec.ofNat 64 (index.toNat * 8)).toNat) :
    (jt c jvt index junk epc handled).hart.pc = junk
    ∧ Regs.read (jalt c jvt index junk epc size handled).regs 1#5 = epc + BitVec.ofNat 64 size := by
  have hf' := (Mem.ult_iff _ _).2 hf
  have hj : (jt c jvt index junk epc handled).hart.pc = junk := by
    unfold jt
    rw [if_neg (by rw [hm]; simp)]
    simp only [BitVec.setWidth_eq, show 64 / 8 = 8 from rfl, if_pos hf']
  refine ⟨hj, ?_⟩
  unfold jalt
  simp only [Regs.read_write]
  simp

/-! ### Non-vacuity -/

/-- A core with sp at 0x2000 and recognisable registers. -/
def sample (w : Nat) : Core w :=
  { hart := Hart.Hart.init w true, regs := fun r => if r = 2#5 then BitVec.ofNat w 0x2000 else BitVec.ofNat w (r.toNat * 0x1111),
    mem := fun _ => 0, limit := Mem.maxSize w, hasC := true }

example : NoWrap (Regs.read (sample 32).regs 2#5) 7 ∧ Accessible (sample 32) (Regs.read (sample 32).regs 2#5) 7 := by
  unfold NoWrap Accessible; decide +kernel
example := C41_push_partial (Or.inl rfl) (sample 32) 7#4 (by decide) 2 0#64 false (fun _ => by unfold NoWrap; decide +kernel)
  (by unfold Accessible; decide +kernel)
example : (slot (w := 64) 0x2000#64 15 27 = 0x1ff8#64) ∧ (slot (w := 64) 0x2000#64 15 1 = 0x1f98#64) ∧ adjust 64 15 3 = 160 := by decide +kernel
example := C41_roundtrip_partial (Or.inr rfl) (sample 64) 15#4 (by decide) 3 [] 0#64 0#64 false false (fun h => by cases h)
  (by unfold Accessible; decide +kernel) (push (sample 64) (BitVec.ofNat 64 (16 * 3)) 15#4 0#64 false) rfl rfl rfl
example := C42_push_violated (Or.inl rfl) { sample 32 with limit := 0x100#64 } 4#4 (by decide) 0 (by decide) 0#64 false
  (by unfold Faults; decide +kernel)
example := C42_pop_violated (Or.inl rfl) { sample 32 with limit := 0x100#64 } 4#4 (by decide) 0 (by decide) [0xdead#32] rfl 0#64 false _ rfl
  (by unfold Faults; decide +kernel)
example := C69_mvsa01 (sample 32).regs 0#3 5#3 (by decide)
example : evenTarget (w := 32) 0x1235#32 = 0x1234#32 := rfl

end Verif.Zcmp
