import Verif.Mem.Spec
/-
C26: the physical address limit. C32: loads and stores.
-/
namespace Verif.Mem
open Verif.Core

variable {w : Nat}

theorem ult_iff (a b : BitVec 64) : a.ult b = true ↔ a.toNat < b.toNat := by simp [BitVec.ult]

/-! ### C26 -/

/-- **C26 (scalar load).** Above the limit: access fault with the address and no value. Otherwise the
memory's bytes. -/
theorem C26_load (c : Core w) (a : BitVec 64) (n : Nat) (epc : BitVec 64) (handled : Bool) :
    (c.limit.toNat < a.toNat →
        ∃ c', load c a n epc handled = .trapped c' ∧ Spec.Raises c c' a 5#64 epc handled)
    ∧ (a.toNat ≤ c.limit.toNat →
        ∃ v, load c a n epc handled = .value v ∧ Spec.Holds c.mem a n v) := by
  constructor
  · intro h
    exact ⟨_, by rw [load, if_pos ((ult_iff _ _).2 h)]; rfl, rfl⟩
  · intro h
    refine ⟨readLE c.mem a n, ?_, fun i hi => (readLE_byte c.mem a n i hi).symm⟩
    rw [load, if_neg (fun hc => by have := (ult_iff _ _).1 hc; omega)]

/-- **C26 (scalar store).** -/
theorem C26_store (c : Core w) (a : BitVec 64) (n v : Nat) (hn : n ≤ 2 ^ 64) (epc : BitVec 64) (handled : Bool) :
    (c.limit.toNat < a.toNat → Spec.Raises c (store c a n v epc handled) a 7#64 epc handled)
    ∧ (a.toNat ≤ c.limit.toNat →
        ∃ m, store c a n v epc handled = { c with mem := m } ∧ Spec.Holds m a n v
          ∧ ∀ b, ¬ Spec.InRange a n b → m b = c.mem b) := by
  constructor
  · intro h
    show _ = _
    rw [store, if_pos ((ult_iff _ _).2 h)]; rfl
  · intro h
    refine ⟨writeLE c.mem a n v, ?_, fun i hi => ?_, fun b hb => ?_⟩
    · rw [store, if_neg (fun hc => by have := (ult_iff _ _).1 hc; omega)]
    · rw [writeLE_byte c.mem a n v i hn hi, BitVec.toNat_ofNat]; rfl
    · refine writeLE_frame c.mem a n v hn b (Nat.le_of_not_lt (fun hlt => hb ⟨(b - a).toNat, hlt, ?_⟩))
      apply BitVec.eq_of_toNat_eq
      rw [BitVec.toNat_add, BitVec.toNat_ofNat, BitVec.toNat_sub]
      have := a.isLt; have := b.isLt
      omega

theorem find_split {α : Type} (p : α → Bool) (l : List α) :
    (∃ e ∈ l, p e = true) → ∃ pre e post, l = pre ++ e :: post ∧ p e = true ∧ (∀ x ∈ pre, p x = false)
      ∧ l.find? p = some e := by
  induction l with
  | nil => rintro ⟨e, h, _⟩; cases h
  | cons x xs ih =>
    intro h
    cases hx : p x
    · have : ∃ e ∈ xs, p e = true := by
        obtain ⟨e, he, hp⟩ := h
        rcases List.mem_cons.1 he with rfl | h'
        · rw [hx] at hp; cases hp
        · exact ⟨e, h', hp⟩
      obtain ⟨pre, e, post, h1, h2, h3, h4⟩ := ih this
      refine ⟨x :: pre, e, post, by rw [h1]; rfl, h2, ?_, ?_⟩
      · intro y hy
        rcases List.mem_cons.1 hy with rfl | h'
        · exact hx
        · exact h3 y h'
      · rw [List.find?_cons_of_neg (by simp [hx]), h4]
    · exact ⟨[], x, xs, rfl, hx, fun y hy => (by cases hy), List.find?_cons_of_pos hx⟩

theorem find_none {α : Type} (p : α → Bool) (l : List α) (h : ¬ ∃ e ∈ l, p e = true) :
    l.find? p = none := by
  rw [List.find?_eq_none]
  intro x hx hp
  exact h ⟨x, hx, hp⟩

/-- The first listed address above the limit. -/
def FirstAbove (limit : BitVec 64) (es : List Elem) (a : BitVec 64) : Prop :=
  ∃ pre e post, es = pre ++ e :: post ∧ e.addr = a ∧ limit.toNat < a.toNat
    ∧ ∀ x ∈ pre, x.addr.toNat ≤ limit.toNat

theorem first_above (limit : BitVec 64) (es : List Elem) (h : ∃ e ∈ es, limit.toNat < e.addr.toNat) :
    ∃ e, es.find? (fun e => limit.ult e.addr) = some e ∧ FirstAbove limit es e.addr := by
  have h' : ∃ e ∈ es, (fun e : Elem => limit.ult e.addr) e = true := by
    obtain ⟨e, he, hl⟩ := h; exact ⟨e, he, (ult_iff _ _).2 hl⟩
  obtain ⟨pre, e, post, h1, h2, h3, h4⟩ := find_split _ es h'
  refine ⟨e, h4, pre, e, post, h1, rfl, (ult_iff _ _).1 h2, fun x hx => ?_⟩
  have := h3 x hx
  refine Nat.le_of_not_lt (fun hc => ?_)
  have h5 := (ult_iff limit x.addr).2 hc
  rw [h5] at this; cases this

/-- **C26 (vector load)**: if some listed element address is above the limit the first such address
is reported and memory is not consulted; otherwise the active elements are delivered. What is
missing: inactive elements are checked too (`C26_masked_violated`), and only the first byte of an
element is checked (`C26_straddle_violated`). -/
theorem C26_loadV_partial (c : Core w) (es : List Elem) (n : Nat) (epc : BitVec 64) (handled : Bool) :
    ((∃ e ∈ es, c.limit.toNat < e.addr.toNat) →
        ∃ a c', FirstAbove c.limit es a ∧ loadV c es n epc handled = .trapped c'
          ∧ Spec.Raises c c' a 5#64 epc handled)
    ∧ ((∀ e ∈ es, e.addr.toNat ≤ c.limit.toNat) →
        ∃ vs, loadV c es n epc handled = .value vs ∧ vs.length = es.length
          ∧ ∀ i (h : i < es.length), (es[i].active = false → vs[i]? = some none)
            ∧ (es[i].active = true → ∃ v, vs[i]? = some (some v) ∧ Spec.Holds c.mem es[i].addr n v)) := by
  constructor
  · intro h
    obtain ⟨e, he, hf⟩ := first_above _ _ h
    exact ⟨e.addr, _, hf, by rw [loadV, he]; rfl, rfl⟩
  · intro h
    refine ⟨gather c.mem es n, ?_, by simp [gather], fun i hi => ⟨fun ha => ?_, fun ha => ?_⟩⟩
    · rw [loadV, find_none]
      rintro ⟨e, he, hl⟩
      have := h e he; have := (ult_iff _ _).1 hl; omega
    · simp [gather, hi, ha]
    · exact ⟨_, by simp [gather, hi, ha], fun j hj => (readLE_byte _ _ n j hj).symm⟩

/-- **C26 (vector store)**, with the same gaps. -/
theorem C26_storeV_partial (c : Core w) (es : List Elem) (n : Nat) (epc : BitVec 64) (handled : Bool) :
    ((∃ e ∈ es, c.limit.toNat < e.addr.toNat) →
        ∃ a, FirstAbove c.limit es a ∧ Spec.Raises c (storeV c es n epc handled) a 7#64 epc handled)
    ∧ ((∀ e ∈ es, e.addr.toNat ≤ c.limit.toNat) →
        storeV c es n epc handled
          = (es.filter (·.active)).foldl (fun c e => { c with mem := writeLE c.mem e.addr n e.data }) c) := by
  constructor
  · intro h
    obtain ⟨e, he, hf⟩ := first_above _ _ h
    exact ⟨e.addr, hf, by show _ = _; rw [storeV, he]; rfl⟩
  · intro h
    have hs : storeV c es n epc handled = { c with mem := scatter c.mem es n } := by
      rw [storeV, find_none]
      rintro ⟨e, he, hl⟩
      have := h e he; have := (ult_iff _ _).1 hl; omega
    rw [hs]
    clear hs h
    unfold scatter
    induction es generalizing c with
    | nil => rfl
    | cons e es ih =>
      cases ha : e.active
      · rw [List.foldl_cons, List.filter_cons_of_neg (by simp [ha])]
        simp only [ha, Bool.false_eq_true, if_false]
        exact ih c
      · rw [List.foldl_cons, List.filter_cons_of_pos (by simp [ha]), List.foldl_cons]
        simp only [ha, if_true]
        exact ih { c with mem := writeLE c.mem e.addr n e.data }

/-- **C26 (limit).** Whatever sequence of limits is requested, starting from the initial limit, the
limit in force is the last request, capped at the architectural maximum. -/
theorem C26_limit (c : Core w) (h0 : c.limit = maxSize w) (vs : List (BitVec 64)) :
    (vs.foldl setLimit c).limit.toNat = Spec.limitAfter (maxSize w).toNat (vs.map BitVec.toNat) := by
  rcases List.eq_nil_or_concat vs with rfl | ⟨pre, v, hv⟩
  · simp [h0, Spec.limitAfter]
  · rw [List.concat_eq_append] at hv
    subst hv
    have e : Spec.limitAfter (maxSize w).toNat ((pre ++ [v]).map BitVec.toNat)
        = min v.toNat (maxSize w).toNat := by
      unfold Spec.limitAfter
      split
      · rename_i h; simp at h
      · simp
    rw [List.foldl_append, e]
    simp only [List.foldl_cons, List.foldl_nil, setLimit]
    by_cases h : (maxSize w).ult v = true
    · rw [if_pos h]; have := (ult_iff _ _).1 h; omega
    · rw [if_neg h]
      have : ¬ (maxSize w).toNat < v.toNat := fun hc => h ((ult_iff _ _).2 hc)
      omega

/-- The limit never exceeds the architectural maximum. -/
theorem C26_limit_bound (c : Core w) (h0 : c.limit = maxSize w) (vs : List (BitVec 64)) :
    (vs.foldl setLimit c).limit.toNat ≤ (maxSize w).toNat := by
  rw [C26_limit c h0]
  unfold Spec.limitAfter
  split <;> omega

def sample : Core 64 :=
  { hart := Hart.Hart.init 64 true, regs := fun r => if r = 2 then 0x1000#64 else 0x8182838485868788#64
    mem := fun _ => 0#8, limit := 0xffff#64, hasC := true }

/-- **C26 violated (masked).** A vector load whose only active element is in bounds faults because
of an inactive element. -/
theorem C26_masked_violated :
    ∃ c', loadV sample [⟨0x1000#64, true, 0⟩, ⟨0x10000#64, false, 0⟩] 4 0x100#64 false = .trapped c' :=
  ⟨_, rfl⟩

/-- **C26 violated (straddling).** A four-byte store at the limit also changes the bytes above it. -/
theorem C26_straddle_violated :
    (store sample 0xffff#64 4 0x11223344 0x100#64 false).mem 0x10000#64 = 0x33#8
      ∧ sample.mem 0x10000#64 = 0#8 ∧ sample.limit.toNat < (0x10000#64).toNat := by
  refine ⟨?_, rfl, by decide⟩
  simp [store, sample, BitVec.ult, writeLE, setByte]

/-! ### C32 -/

theorem pow_eq (n : Nat) : 256 ^ n = 2 ^ (8 * n) := by rw [Nat.pow_mul]

theorem extend_ok (sgn : Bool) (n v : Nat) (hn : 8 * n ≤ w) : Spec.IsExt sgn n v (extend w sgn n v) := by
  unfold Spec.IsExt extend
  cases sgn
  · simp only [Bool.false_eq_true, if_false]
    rw [BitVec.toNat_setWidth, BitVec.toNat_ofNat]
    exact Nat.mod_eq_of_lt (Nat.lt_of_lt_of_le (Nat.mod_lt _ (Nat.two_pow_pos _))
      (Nat.pow_le_pow_right (by decide) hn))
  · simp only [if_true]
    rw [BitVec.toInt_signExtend_of_le hn, BitVec.toInt_eq_toNat_bmod, BitVec.toNat_ofNat]
    push_cast
    have := Int.emod_bmod (x := (v : Int)) (n := 2 ^ (8 * n))
    push_cast at this
    exact this

/-- The access fits the register width. -/
def Fits (w : Nat) (sz : Size) : Prop := 8 * sz.bytes ≤ w

theorem load_ea (c : Core w) (sz : Size) (hf : Fits w sz) (sgn : Bool) (rd rs1 : BitVec 5) (off : BitVec w)
    (epc : BitVec 64) (handled : Bool) :
    ((ea c rs1 off).toNat ≤ c.limit.toNat →
      ∃ v r, Spec.Holds c.mem (ea c rs1 off) sz.bytes v ∧ v < 256 ^ sz.bytes ∧ Spec.IsExt sgn sz.bytes v r
        ∧ execLoad c sz sgn rd rs1 off epc handled = { c with regs := Regs.write c.regs rd r })
    ∧ (c.limit.toNat < (ea c rs1 off).toNat →
      Spec.Raises c (execLoad c sz sgn rd rs1 off epc handled) (ea c rs1 off) 5#64 epc handled) := by
  constructor
  · intro h
    refine ⟨readLE c.mem (ea c rs1 off) sz.bytes, _, fun i hi => (readLE_byte _ _ _ i hi).symm,
      readLE_lt _ _ _, extend_ok sgn _ _ hf, ?_⟩
    rw [execLoad, load, if_neg (fun hc => by have := (ult_iff _ _).1 hc; omega)]
  · intro h
    show _ = _
    rw [execLoad, load, if_pos ((ult_iff _ _).2 h)]; rfl

theorem store_ea (c : Core w) (sz : Size) (rs2 rs1 : BitVec 5) (off : BitVec w)
    (epc : BitVec 64) (handled : Bool) :
    ((ea c rs1 off).toNat ≤ c.limit.toNat →
      ∃ m, execStore c sz rs2 rs1 off epc handled = { c with mem := m }
        ∧ Spec.Holds m (ea c rs1 off) sz.bytes (Regs.read c.regs rs2).toNat
        ∧ ∀ b, ¬ Spec.InRange (ea c rs1 off) sz.bytes b → m b = c.mem b)
    ∧ (c.limit.toNat < (ea c rs1 off).toNat →
      Spec.Raises c (execStore c sz rs2 rs1 off epc handled) (ea c rs1 off) 7#64 epc handled) := by
  have hs := C26_store c (ea c rs1 off) sz.bytes ((Regs.read c.regs rs2).toNat % 2 ^ (8 * sz.bytes))
    (by cases sz <;> decide) epc handled
  refine ⟨fun h => ?_, hs.1⟩
  obtain ⟨m, h1, h2, h3⟩ := hs.2 h
  refine ⟨m, h1, fun i hi => ?_, h3⟩
  rw [h2 i hi, Spec.byteOf, Spec.byteOf, ← pow_eq]
  have e : 256 ^ sz.bytes = 256 ^ i * 256 ^ (sz.bytes - i) := by rw [← Nat.pow_add]; congr 1; omega
  rw [e, Nat.mod_mul_right_div_self]
  have e2 : 256 ^ (sz.bytes - i) = 256 * 256 ^ (sz.bytes - i - 1) := by
    rw [← Nat.pow_succ']; congr 1; omega
  rw [e2, Nat.mod_mul_right_mod]

theorem roundtrip_ea (c : Core w) (sz : Size) (hf : Fits w sz) (sgn : Bool) (rd rs2 rs1 : BitVec 5)
    (off : BitVec w) (e1 e2 : BitVec 64) (h1 h2 : Bool) (hrd : rd ≠ 0#5)
    (hl : (ea c rs1 off).toNat ≤ c.limit.toNat) :
    Spec.IsExt sgn sz.bytes (Regs.read c.regs rs2).toNat
      (Regs.read (execLoad (execStore c sz rs2 rs1 off e1 h1) sz sgn rd rs1 off e2 h2).regs rd) := by
  have hn : ¬ c.limit.ult (ea c rs1 off) = true := fun hc => by have := (ult_iff _ _).1 hc; omega
  have hst : execStore c sz rs2 rs1 off e1 h1 = { c with mem := (writeLE c.mem (ea c rs1 off) sz.bytes
        ((Regs.read c.regs rs2).toNat % 2 ^ (8 * sz.bytes))) } := by
    rw [execStore, store, if_neg hn]
  have hea : ea { c with mem := (writeLE c.mem (ea c rs1 off) sz.bytes
        ((Regs.read c.regs rs2).toNat % 2 ^ (8 * sz.bytes))) } rs1 off = ea c rs1 off := rfl
  rw [hst, execLoad, load, hea, if_neg hn]
  simp only [Regs.read_write, if_neg hrd, if_true]
  rw [readLE_writeLE _ _ _ _ (by cases sz <;> decide), pow_eq, Nat.mod_mod]
  have := extend_ok (w := w) sgn sz.bytes ((Regs.read c.regs rs2).toNat % 2 ^ (8 * sz.bytes)) hf
  generalize extend w sgn sz.bytes ((Regs.read c.regs rs2).toNat % 2 ^ (8 * sz.bytes)) = r at this
  unfold Spec.IsExt at *
  cases sgn
  · simpa using this
  · simp only [if_true] at *
    rw [this]
    push_cast
    have := Int.emod_bmod (x := ((Regs.read c.regs rs2).toNat : Int)) (n := 2 ^ (8 * sz.bytes))
    push_cast at this
    exact this

theorem disjoint_ea (c : Core w) (sz sz' : Size) (sgn : Bool) (rd rs2 rs1 rs1' : BitVec 5)
    (off off' : BitVec w) (e1 e2 : BitVec 64) (h1 h2 : Bool)
    (hd : ∀ b, Spec.InRange (ea c rs1' off') sz'.bytes b → ¬ Spec.InRange (ea c rs1 off) sz.bytes b)
    (hl : (ea c rs1 off).toNat ≤ c.limit.toNat) (hl' : (ea c rs1' off').toNat ≤ c.limit.toNat) :
    (execLoad (execStore c sz rs2 rs1 off e1 h1) sz' sgn rd rs1' off' e2 h2).regs
      = (execLoad c sz' sgn rd rs1' off' e2 h2).regs := by
  obtain ⟨m, hm, _, hfr⟩ := (store_ea c sz rs2 rs1 off e1 h1).1 hl
  have hn : ¬ c.limit.ult (ea c rs1' off') = true := fun hc => by have := (ult_iff _ _).1 hc; omega
  have hea : ea { c with mem := m } rs1' off' = ea c rs1' off' := rfl
  rw [hm, execLoad, execLoad, load, load, hea, if_neg hn, if_neg hn]
  simp only
  rw [readLE_congr m c.mem _ _ (fun i hi => hfr _ (hd _ ⟨i, hi, rfl⟩))]

theorem address_iff (hw : w ≤ 64) (c : Core w) (rs1 : BitVec 5) (off : BitVec w) (a : BitVec 64) :
    Spec.IsAddress c rs1 off a ↔ a = ea c rs1 off := by
  have hp : (2 : Nat) ^ w ≤ 2 ^ 64 := Nat.pow_le_pow_right (by decide) hw
  have hr : (if rs1 = 0#5 then 0 else (c.regs rs1).toNat) = (Regs.read c.regs rs1).toNat := by
    unfold Regs.read; split <;> simp
  have he : (((ea c rs1 off).toNat : Nat) : Int) = (((Regs.read c.regs rs1).toNat : Nat) + off.toInt) % 2 ^ w := by
    have h1 : (ea c rs1 off).toNat = ((Regs.read c.regs rs1).toNat + off.toNat) % 2 ^ w := by
      rw [ea, BitVec.toNat_setWidth, BitVec.toNat_add]
      exact Nat.mod_eq_of_lt (Nat.lt_of_lt_of_le (Nat.mod_lt _ (Nat.two_pow_pos _)) hp)
    rw [h1, BitVec.toInt_eq_toNat_bmod]
    push_cast
    rw [Int.add_emod, Int.add_emod _ (Int.bmod _ _)]
    congr 2
    have := Int.bmod_emod (x := (off.toNat : Int)) (m := 2 ^ w)
    push_cast at this
    exact this.symm
  unfold Spec.IsAddress
  rw [hr, ← he]
  exact ⟨fun h => BitVec.eq_of_toNat_eq (by exact_mod_cast h), fun h => by rw [h]⟩

/-- **C32 (load).** The destination gets the extended little-endian value of the addressed bytes;
nothing else changes. Above the limit: load access fault, no other effect. -/
theorem C32_load (hw : w ≤ 64) (c : Core w) (sz : Size) (hf : Fits w sz) (sgn : Bool) (rd rs1 : BitVec 5)
    (off : BitVec w) (a epc : BitVec 64) (ha : Spec.IsAddress c rs1 off a) (handled : Bool) :
    (a.toNat ≤ c.limit.toNat →
      ∃ v r, Spec.Holds c.mem a sz.bytes v ∧ v < 256 ^ sz.bytes ∧ Spec.IsExt sgn sz.bytes v r
        ∧ execLoad c sz sgn rd rs1 off epc handled = { c with regs := Regs.write c.regs rd r })
    ∧ (c.limit.toNat < a.toNat →
      Spec.Raises c (execLoad c sz sgn rd rs1 off epc handled) a 5#64 epc handled) := by
  obtain rfl := (address_iff hw c rs1 off a).1 ha
  exact load_ea c sz hf sgn rd rs1 off epc handled

/-- **C32 (store).** Exactly the addressed bytes change, to the low bytes of rs2. -/
theorem C32_store (hw : w ≤ 64) (c : Core w) (sz : Size) (rs2 rs1 : BitVec 5) (off : BitVec w)
    (a epc : BitVec 64) (ha : Spec.IsAddress c rs1 off a) (handled : Bool) :
    (a.toNat ≤ c.limit.toNat →
      ∃ m, execStore c sz rs2 rs1 off epc handled = { c with mem := m }
        ∧ Spec.Holds m a sz.bytes (Regs.read c.regs rs2).toNat
        ∧ ∀ b, ¬ Spec.InRange a sz.bytes b → m b = c.mem b)
    ∧ (c.limit.toNat < a.toNat →
      Spec.Raises c (execStore c sz rs2 rs1 off epc handled) a 7#64 epc handled) := by
  obtain rfl := (address_iff hw c rs1 off a).1 ha
  exact store_ea c sz rs2 rs1 off epc handled

/-- **C32 (round trip).** A store followed by a load of the same size from the same effective address
delivers the low part of the stored register, sign- or zero-extended. -/
theorem C32_roundtrip (hw : w ≤ 64) (c : Core w) (sz : Size) (hf : Fits w sz) (sgn : Bool) (rd rs2 rs1 : BitVec 5)
    (off : BitVec w) (a e1 e2 : BitVec 64) (ha : Spec.IsAddress c rs1 off a) (h1 h2 : Bool) (hrd : rd ≠ 0#5)
    (hl : a.toNat ≤ c.limit.toNat) :
    Spec.IsExt sgn sz.bytes (Regs.read c.regs rs2).toNat
      (Regs.read (execLoad (execStore c sz rs2 rs1 off e1 h1) sz sgn rd rs1 off e2 h2).regs rd) := by
  obtain rfl := (address_iff hw c rs1 off a).1 ha
  exact roundtrip_ea c sz hf sgn rd rs2 rs1 off e1 e2 h1 h2 hrd hl

/-- **C32 (independence).** A store does not change what a load from a disjoint range delivers. -/
theorem C32_disjoint (hw : w ≤ 64) (c : Core w) (sz sz' : Size) (sgn : Bool) (rd rs2 rs1 rs1' : BitVec 5)
    (off off' : BitVec w) (a a' e1 e2 : BitVec 64) (ha : Spec.IsAddress c rs1 off a)
    (ha' : Spec.IsAddress c rs1' off' a') (h1 h2 : Bool)
    (hd : ∀ b, Spec.InRange a' sz'.bytes b → ¬ Spec.InRange a sz.bytes b)
    (hl : a.toNat ≤ c.limit.toNat) (hl' : a'.toNat ≤ c.limit.toNat) :
    (execLoad (execStore c sz rs2 rs1 off e1 h1) sz' sgn rd rs1' off' e2 h2).regs
      = (execLoad c sz' sgn rd rs1' off' e2 h2).regs := by
  obtain rfl := (address_iff hw c rs1 off a).1 ha
  obtain rfl := (address_iff hw c rs1' off' a').1 ha'
  exact disjoint_ea c sz sz' sgn rd rs2 rs1 rs1' off off' e1 e2 h1 h2 hd hl hl'

/-! Non-vacuity. -/
example : (ea sample 2 4#64).toNat ≤ sample.limit.toNat := by decide
example : Spec.IsAddress sample 2 (-4#64) 0xffc#64 := by unfold Spec.IsAddress; decide
example : Regs.read (execLoad (execStore sample .h 5 2 4#64 0#64) .h true 6 2 4#64 0#64).regs 6
    = 0xffffffffffff8788#64 := by decide
example : Regs.read (execLoad (execStore sample .h 5 2 4#64 0#64) .h false 6 2 4#64 0#64).regs 6
    = 0x8788#64 := by decide
example : Fits 32 .w ∧ ¬ Fits 32 .d ∧ Fits 64 .d := by unfold Fits; decide

end Verif.Mem
