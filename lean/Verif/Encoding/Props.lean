import Verif.Encoding.CsrNames

/-! # C58: operand encoders and decoders are inverse -/

namespace Verif.Encoding

open BinFmt Spec

/-! ## Fields -/

/-- A field or overlay is laid out properly: it resolves, no word bit is used
twice, every bit is inside the word, and the number of bits is the declared
width. -/
def wellFormed (f : Format) (n : Fld) : Bool :=
  match f.bits n with
  | none => false
  | some bs =>
    decide ((positions bs).Nodup) && decide (bs.length ≤ 32) &&
      (positions bs).all (fun i => decide (i < f.width)) &&
      (f.fields.any (fun x => decide (x.name = n ∧ x.width = bs.length)) ||
        f.overlays.any (fun x => decide (x.name = n ∧ x.width = bs.length)))

theorem formats_wellFormed (f : Fmt) : ∀ n ∈ names f.decl, wellFormed f.decl n = true := by
  cases f <;> decide +kernel

theorem wellFormed_bits {f : Format} {n : Fld} (h : wellFormed f n = true) :
    ∃ bs, f.bits n = some bs ∧ (positions bs).Nodup ∧ bs.length ≤ 32 ∧
      ∀ i ∈ positions bs, i < f.width := by
  unfold wellFormed at h
  cases hb : f.bits n with
  | none => simp [hb] at h
  | some bs =>
    simp only [hb, Bool.and_eq_true, decide_eq_true_eq, List.all_eq_true] at h
    exact ⟨bs, rfl, h.1.1.1, h.1.1.2, fun i hi => h.1.2 i hi⟩

/-- The fields of every format fill the word exactly. -/
theorem C58_fields_cover_word (f : Fmt) :
    (f.decl.fields.map (·.width)).sum = f.decl.width ∧
      (f.decl.width = 32 ∨ f.decl.width = 16) := by
  cases f <;> decide

/-- Inserting a representable value into any field or overlay of any format and
extracting it returns the value, keeps every bit outside the field, and the
field lies inside the word. -/
theorem C58_field_round_trip (f : Fmt) (n : Fld) (hn : n ∈ names f.decl) (v : Int)
    (hv : Representable f.decl n v) (w : Nat) :
    ∃ bs, f.decl.bits n = some bs ∧
      extract (f.decl.isSigned n) bs (insert bs (pattern v) w) = v ∧
      (∀ i, i ∉ positions bs → (insert bs (pattern v) w).testBit i = w.testBit i) ∧
      (∀ i ∈ positions bs, i < f.decl.width) := by
  obtain ⟨bs, hb, hnd, hl, hr⟩ := wellFormed_bits (formats_wellFormed f n hn)
  obtain ⟨w₀, bs', hb', hx⟩ := hv
  rw [hb] at hb'
  obtain rfl := Option.some.inj hb'
  exact ⟨bs, hb, extract_insert _ bs v v w w₀ hnd (by omega) hx rfl,
    fun i hi => insert_frame bs _ w i hi, hr⟩

example : Fld.b_imm ∈ names Fmt.BType.decl ∧ Representable Fmt.BType.decl .b_imm (-4096) ∧
    Representable Fmt.BType.decl .b_imm 2050 := by
  refine ⟨by decide, ⟨0x80000000, _, rfl, by decide⟩, ⟨0x1e3, _, rfl, by decide⟩⟩

/-! ## Operands -/

/-- The operands whose setter and getter use the same field bits. -/
def consistent (o : Operand) : Bool :=
  decide (bitsOf o.setter.fmt o.setter.fld = bitsOf o.getter.fmt o.getter.fld)

/-- The operands encoded into a different field than they are decoded from. -/
def misplaced : List Operand :=
  [.src .Frs2, .src .Rm, .src .ICssUimm6x4, .src .ICssUimm6x8]

/-- Exactly the listed operands are encoded into other bits than they are
decoded from. -/
theorem consistent_iff (o : Operand) : consistent o = true ↔ o ∉ misplaced := by
  cases o with
  | src o => cases o <;> decide
  | dst o => cases o <;> decide

theorem getter_wellFormed (o : Operand) : wellFormed o.getter.fmt.decl o.getter.fld = true := by
  cases o with
  | src o => cases o <;> decide
  | dst o => cases o <;> decide

theorem lookup_mem {l : List (String × Nat)} {s : String} {n : Nat} (h : l.lookup s = some n) :
    (s, n) ∈ l := by
  induction l with
  | nil => simp at h
  | cons p l ih =>
    rw [List.lookup_cons] at h
    by_cases hp : (s == p.1) = true
    · rw [hp] at h
      have h1 : s = p.1 := by simpa using hp
      have h2 : p.2 = n := Option.some.inj h
      subst h1 h2
      exact List.mem_cons_self
    · rw [Bool.eq_false_iff.mpr hp] at h
      exact List.mem_cons_of_mem _ (ih h)

/-- No name of the list stands for another number of the class. -/
def agrees (c : Class) (l : List (String × Nat)) : Prop :=
  ∀ s m, (s, m) ∈ l → s ≠ "mnstatus" → ∀ n, Named c s n → n = m

theorem agrees_x : agrees .x namesRegister := by
  have h : ∀ p ∈ namesRegister, ∀ n ∈ List.range 32, Named .x p.1 n → n = p.2 := by
    decide +kernel
  intro s m hm _ n hn
  exact h (s, m) hm n (List.mem_range.mpr hn.1) hn

theorem agrees_xc : agrees .x namesCRegister := by
  have h : ∀ p ∈ namesCRegister, ∀ n ∈ List.range 32, Named .x p.1 n → n = p.2 := by
    decide +kernel
  intro s m hm _ n hn
  exact h (s, m) hm n (List.mem_range.mpr hn.1) hn

theorem agrees_f : agrees .f namesFRegister := by
  have h : ∀ p ∈ namesFRegister, ∀ n ∈ List.range 32, Named .f p.1 n → n = p.2 := by
    decide +kernel
  intro s m hm _ n hn
  exact h (s, m) hm n (List.mem_range.mpr hn.1) hn

theorem agrees_d : agrees .d namesDRegister := by
  have h : ∀ p ∈ namesDRegister, ∀ n ∈ List.range 32, Named .d p.1 n → n = p.2 := by
    decide +kernel
  intro s m hm _ n hn
  exact h (s, m) hm n (List.mem_range.mpr hn.1) hn

theorem agrees_dc : agrees .d namesDCRegister := by
  have h : ∀ p ∈ namesDCRegister, ∀ n ∈ List.range 32, Named .d p.1 n → n = p.2 := by
    decide +kernel
  intro s m hm _ n hn
  exact h (s, m) hm n (List.mem_range.mpr hn.1) hn

theorem agrees_csr : agrees .csr namesCsrRegister := by
  intro s m hm hs n hn
  have h := List.all_eq_true.mp csr_names_agree (s, m) hm
  have hn : csrs.lookup s = some n := hn
  simp only [hn, Option.all_some, Bool.or_eq_true, beq_iff_eq] at h
  rcases h with h | h
  · exact absurd h hs
  · exact h

theorem agrees_aq : agrees .aq namesAq := by
  intro s m hm _ n hn
  simp only [namesAq, List.mem_cons, Prod.mk.injEq, List.not_mem_nil, or_false] at hm
  rcases hm with ⟨rfl, rfl⟩ | ⟨rfl, rfl⟩ <;> rcases hn with ⟨h, rfl⟩ | ⟨h, rfl⟩ <;> simp_all

theorem agrees_rl : agrees .rl namesRl := by
  intro s m hm _ n hn
  simp only [namesRl, List.mem_cons, Prod.mk.injEq, List.not_mem_nil, or_false] at hm
  rcases hm with ⟨rfl, rfl⟩ | ⟨rfl, rfl⟩ <;> rcases hn with ⟨h, rfl⟩ | ⟨h, rfl⟩ <;> simp_all

/-- The names each kind of operand accepts. -/
theorem named_setter (o : Operand) (c : Class) (h : kind o = .named c) :
    ∃ l, o.setter.how = .name l ∧ agrees c l := by
  cases o with
  | src o =>
    cases o <;> simp only [kind, Kind.named.injEq, reduceCtorEq] at h <;> subst h <;>
      first
        | exact ⟨_, rfl, agrees_x⟩ | exact ⟨_, rfl, agrees_xc⟩ | exact ⟨_, rfl, agrees_f⟩
        | exact ⟨_, rfl, agrees_d⟩ | exact ⟨_, rfl, agrees_dc⟩ | exact ⟨_, rfl, agrees_csr⟩
        | exact ⟨_, rfl, agrees_aq⟩ | exact ⟨_, rfl, agrees_rl⟩
  | dst o =>
    cases o <;> simp only [kind, Kind.named.injEq, reduceCtorEq] at h <;> subst h <;>
      first
        | exact ⟨_, rfl, agrees_x⟩ | exact ⟨_, rfl, agrees_xc⟩ | exact ⟨_, rfl, agrees_f⟩
        | exact ⟨_, rfl, agrees_d⟩ | exact ⟨_, rfl, agrees_dc⟩ | exact ⟨_, rfl, agrees_csr⟩

theorem number_setter (o : Operand) (h : kind o = .number) (hm : o ∉ misplaced) :
    ∃ s, o.setter.how = .number s := by
  cases o with
  | src o =>
    cases o <;> first | (simp [kind] at h; done) | exact ⟨_, rfl⟩ | exact absurd (by decide) hm
  | dst o => cases o <;> simp [kind] at h

theorem target_setter (o : Operand) (h : kind o = .target) :
    ∃ s w, o.setter.how = .relative s w ∧ 32 ≤ w := by
  cases o with
  | src o =>
    cases o <;> first | (simp [kind] at h; done) | exact ⟨_, _, rfl, by decide⟩
  | dst o => cases o <;> simp [kind] at h

theorem toInt32_mod (x : Int) : toInt32 x % 2 ^ 32 = x % 2 ^ 32 := by
  unfold toInt32
  rw [BitVec.toInt_ofInt]
  exact Int.bmod_emod

theorem toUInt32_mod (x : Int) : toUInt32 x % 2 ^ 32 = x % 2 ^ 32 := by
  unfold toUInt32
  rw [BitVec.toNat_ofInt]
  have h0 : 0 ≤ x % ((2 ^ 32 : Nat) : Int) := Int.emod_nonneg _ (by decide)
  rw [Int.toNat_of_nonneg h0]
  show x % 4294967296 % 4294967296 = _
  omega

/-- A number that is accepted is the number written, up to 32 bits. -/
theorem parse_mod {s : Bool} {t : Text} {v x : Int} (h : parse s t = some x)
    (hw : written t = some v) : x % 2 ^ 32 = v % 2 ^ 32 := by
  cases t with
  | hex n =>
    simp only [parse] at h
    simp only [written, Option.some.injEq] at hw
    split at h <;> (split at h <;> simp at h <;> (try rw [← h, ← hw]))
  | dec i =>
    simp only [parse] at h
    simp only [written, Option.some.injEq] at hw
    split at h <;> split at h <;> simp at h <;> rw [← h, ← hw]
  | symbol a =>
    simp only [parse, Option.some.injEq] at h
    simp only [written, Option.some.injEq] at hw
    rw [← h, ← hw]
    split
    · exact toInt32_mod _
    · exact toUInt32_mod _
  | name s => simp [parse] at h

/-- What the setter inserts is the value meant, up to 32 bits. -/
theorem number_means {o : Operand} (ho : o ∉ misplaced) {address : BitVec 64} {t : Text}
    {v x : Int} (hn : t ≠ .name "mnstatus") (hm : Means o address t v)
    (hx : o.setter.how.number' address t = some x) : x % 2 ^ 32 = v % 2 ^ 32 := by
  unfold Means at hm
  cases hk : kind o with
  | named c =>
    rw [hk] at hm
    obtain ⟨s, n, rfl, hc, rfl⟩ := hm
    obtain ⟨l, hl, ha⟩ := named_setter o c hk
    rw [hl] at hx
    have hx : (l.lookup s).map (fun n : Nat => (n : Int)) = some x := hx
    cases hlk : l.lookup s with
    | none => rw [hlk] at hx; simp at hx
    | some m =>
      rw [hlk] at hx
      have hx : ((m : Nat) : Int) = x := Option.some.inj hx
      rw [← hx, ha s m (lookup_mem hlk) (fun h => hn (by rw [h])) n hc]
  | number =>
    rw [hk] at hm
    obtain ⟨s, hs⟩ := number_setter o hk ho
    rw [hs] at hx
    exact parse_mod hx hm
  | target =>
    rw [hk] at hm
    obtain ⟨a, ha, rfl⟩ := hm
    obtain ⟨s, w, hs, hw⟩ := target_setter o hk
    rw [hs] at hx
    have hx : (parse s t).map (fun v : Int => (v - (address.toNat : Int)) % (2 : Int) ^ w) = some x := hx
    cases hp : parse s t with
    | none => rw [hp] at hx; simp at hx
    | some y =>
      rw [hp] at hx
      simp only [Option.map_some, Option.some.injEq] at hx
      have h1 := parse_mod hp ha
      rw [← hx, Int.emod_emod_of_dvd _ ⟨2 ^ (w - 32), by rw [← Int.pow_add]; congr 1; omega⟩]
      rw [Int.sub_emod, h1, ← Int.sub_emod]

theorem setter_bits {o : Operand} (ho : o ∉ misplaced) :
    bitsOf o.setter.fmt o.setter.fld = bitsOf o.getter.fmt o.getter.fld := by
  have := (consistent_iff o).mpr ho
  simpa [consistent] using this

theorem or_testBit_off {base e i : Nat} (h : e.testBit i = false) :
    (base ||| e).testBit i = base.testBit i := by
  rw [Nat.testBit_or, h, Bool.or_false]

/-- Values that fit their conversion. -/
theorem conv_mod (c : Conv) (x : Int) : Same32 (c.apply x) x := by
  cases c
  · exact toInt32_mod x
  · exact toUInt32_mod x

theorem toInt32_id {x : Int} (h1 : -2 ^ 31 ≤ x) (h2 : x < 2 ^ 31) : toInt32 x = x := by
  unfold toInt32
  rw [BitVec.toInt_ofInt]
  exact Int.bmod_eq_of_le (by omega) (by omega)

theorem toUInt32_id {x : Int} (h1 : 0 ≤ x) (h2 : x < 2 ^ 32) : toUInt32 x = x := by
  unfold toUInt32
  rw [BitVec.toNat_ofInt]
  have : x % ((2 ^ 32 : Nat) : Int) = x := Int.emod_eq_of_lt h1 h2
  rw [this, Int.toNat_of_nonneg h1]

/-- The range of an extracted value. -/
theorem extract_range (s : Bool) (bs : List Bit) (w : Nat) :
    (s = true → -(2 : Int) ^ bs.length ≤ 2 * extract s bs w ∧
      2 * extract s bs w < 2 ^ bs.length) ∧
    (s = false → 0 ≤ extract s bs w ∧ extract s bs w < 2 ^ bs.length) := by
  have h := value_lt w bs
  have hi : ((value w bs : Nat) : Int) < 2 ^ bs.length := by exact_mod_cast h
  constructor
  · intro hs
    unfold extract
    split
    · rename_i hc
      have : ((2 ^ bs.length : Nat) : Int) ≤ 2 * (value w bs : Int) := by exact_mod_cast hc.2
      have hc' : ((2 ^ bs.length : Nat) : Int) = (2 : Int) ^ bs.length := by simp
      omega
    · rename_i hc
      have hlt : 2 * value w bs < 2 ^ bs.length := by
        by_cases hh : 2 ^ bs.length ≤ 2 * value w bs
        · exact absurd ⟨hs, hh⟩ hc
        · omega
      have : 2 * (value w bs : Int) < 2 ^ bs.length := by exact_mod_cast hlt
      omega
  · intro hs
    unfold extract
    rw [if_neg (by simp [hs])]
    omega

/-- The extracted value of every operand other than `UImm20` fits its type. -/
def fits (o : Operand) : Bool :=
  let s := o.getter.fmt.decl.isSigned o.getter.fld
  let n := (bitsOf o.getter.fmt o.getter.fld).length
  match o.getter.conv with
  | .int32 => if s then decide (n ≤ 32) else decide (n ≤ 31)
  | .uint32 => !s && decide (n ≤ 32)

theorem fits_all (o : Operand) (h : o ≠ .src .UImm20) : fits o = true := by
  cases o with
  | src o => cases o <;> first | decide | exact absurd rfl h
  | dst o => cases o <;> decide

theorem conv_id {o : Operand} (h : o ≠ .src .UImm20) (w : Nat) :
    decode o w = extract (o.getter.fmt.decl.isSigned o.getter.fld)
      (bitsOf o.getter.fmt o.getter.fld) w := by
  have hf := fits_all o h
  unfold fits at hf
  unfold decode
  have hr := extract_range (o.getter.fmt.decl.isSigned o.getter.fld)
    (bitsOf o.getter.fmt o.getter.fld) w
  have hpow : ∀ {a b : Nat}, a ≤ b → (2 : Int) ^ a ≤ 2 ^ b := by
    intro a b hab
    exact_mod_cast Nat.pow_le_pow_right (by decide) hab
  cases hc : o.getter.conv with
  | int32 =>
    simp only [hc] at hf
    show toInt32 _ = _
    by_cases hs : o.getter.fmt.decl.isSigned o.getter.fld = true
    · rw [if_pos hs] at hf
      have hn := hpow (of_decide_eq_true hf)
      have := hr.1 hs
      exact toInt32_id (by omega) (by omega)
    · rw [if_neg hs] at hf
      have hn := hpow (of_decide_eq_true hf)
      have := hr.2 (by simpa using hs)
      exact toInt32_id (by omega) (by omega)
  | uint32 =>
    simp only [hc, Bool.and_eq_true, Bool.not_eq_true', decide_eq_true_eq] at hf
    show toUInt32 _ = _
    have hn := hpow hf.2
    have := hr.2 hf.1
    exact toUInt32_id (by omega) (by omega)

/-- The field value after the encoding has been merged into a word whose
operand bits are clear. -/
theorem extract_assembled {o : Operand} (ho : o ∉ misplaced) {address : BitVec 64} {t : Text}
    {v : Int} {e base : Nat} (hn : t ≠ .name "mnstatus") (hm : Means o address t v)
    (hr : Representable o.getter.fmt.decl o.getter.fld v)
    (he : encode o address t = some e)
    (hb : ∀ i ∈ positions (bitsOf o.getter.fmt o.getter.fld), base.testBit i = false) :
    extract (o.getter.fmt.decl.isSigned o.getter.fld) (bitsOf o.getter.fmt o.getter.fld)
        (assemble base e) = v ∧
      ∀ i, i ∉ positions (bitsOf o.getter.fmt o.getter.fld) →
        (assemble base e).testBit i = base.testBit i := by
  obtain ⟨bs, hbs, hnd, hl, _⟩ := wellFormed_bits (getter_wellFormed o)
  have hbits : bitsOf o.getter.fmt o.getter.fld = bs := by simp [bitsOf, hbs]
  rw [hbits] at hb ⊢
  obtain ⟨w₀, bs', hb', hx⟩ := hr
  rw [hbs] at hb'
  obtain rfl := Option.some.inj hb'
  unfold encode at he
  rw [setter_bits ho, hbits] at he
  cases hx2 : o.setter.how.number' address t with
  | none => rw [hx2] at he; simp at he
  | some x =>
    rw [hx2] at he
    simp only [Option.map_some, Option.some.injEq] at he
    subst he
    have hmod := number_means ho hn hm hx2
    have hmod' : x % 2 ^ bs.length = v % 2 ^ bs.length := by
      have hd : (2 : Int) ^ bs.length ∣ 2 ^ 32 :=
        ⟨2 ^ (32 - bs.length), by rw [← Int.pow_add]; congr 1; omega⟩
      rw [← Int.emod_emod_of_dvd x hd, hmod, Int.emod_emod_of_dvd v hd]
    constructor
    · rw [← extract_insert _ bs x v 0 w₀ hnd (by omega) hx hmod']
      apply extract_congr
      intro i hi
      unfold assemble
      rw [Nat.testBit_or, hb i hi, Bool.false_or]
    · intro i hi
      apply or_testBit_off
      rw [insert_frame _ _ _ _ hi, Nat.zero_testBit]

/-- Every operand the assembler accepts, whose value fits the field, is decoded
to the value its text stands for, and the other bits of the word are those of
the opcode.  Missing: the four operands encoded into the wrong field
(`misplaced`), the CSR name `mnstatus`, and texts the assembler refuses
although their value is representable. -/
theorem C58_operand_round_trip_partial (o : Operand) (ho : o ∉ misplaced)
    (hu : o ≠ .src .UImm20) (address : BitVec 64) (t : Text) (v : Int) (e base : Nat)
    (hn : t ≠ .name "mnstatus") (hm : Means o address t v)
    (hr : Representable o.getter.fmt.decl o.getter.fld v)
    (he : encode o address t = some e)
    (hb : ∀ i ∈ positions (bitsOf o.getter.fmt o.getter.fld), base.testBit i = false) :
    decode o (assemble base e) = v ∧
      ∀ i, i ∉ positions (bitsOf o.getter.fmt o.getter.fld) →
        (assemble base e).testBit i = base.testBit i := by
  rw [conv_id hu]
  exact extract_assembled ho hn hm hr he hb

/-- `lui`/`auipc`: the operand is the whole 32 bit value; it is decoded to the
same 32 bits, read as a signed number. -/
theorem C58_upper_immediate (address : BitVec 64) (t : Text) (v : Int) (e base : Nat)
    (hm : Means (.src .UImm20) address t v)
    (hr : Representable Fmt.UType.decl .u_imm v)
    (he : encode (.src .UImm20) address t = some e)
    (hb : ∀ i ∈ positions (bitsOf .UType .u_imm), base.testBit i = false) :
    Same32 (decode (.src .UImm20) (assemble base e)) v ∧
      ∀ i, i ∉ positions (bitsOf .UType .u_imm) →
        (assemble base e).testBit i = base.testBit i := by
  have hn : t ≠ .name "mnstatus" := by
    rintro rfl
    simp [Means, kind, written] at hm
  have h := extract_assembled (o := .src .UImm20) (by decide) hn hm hr he hb
  refine ⟨?_, h.2⟩
  have h1 := h.1
  show (Conv.apply .int32 _) % 2 ^ 32 = v % 2 ^ 32
  rw [← h1]
  exact conv_mod .int32 _

/-- `beq` from 0x80000010 to 0x80000000: the hypotheses hold and the offset is
decoded as -16. -/
example : Means (.src .BImm12) 0x80000010#64 (.hex 0x80000000) (-16) ∧
    Representable Fmt.BType.decl .b_imm (-16) ∧
    encode (.src .BImm12) 0x80000010#64 (.hex 0x80000000) = some 0xfe000880 ∧
    (∀ i ∈ positions (bitsOf .BType .b_imm), (0x63 : Nat).testBit i = false) ∧
    decode (.src .BImm12) (assemble 0x63 0xfe000880) = -16 := by
  refine ⟨⟨0x80000000, rfl, by decide⟩, ⟨0xfe000880, _, rfl, by decide⟩, by decide, by decide,
    by decide⟩

/-- `c.lw` base register `a5`. -/
example : Means (.src .C3rs1) 0#64 (.name "a5") 15 ∧
    Representable Fmt.CS.decl .cs_rs1 15 ∧
    encode (.src .C3rs1) 0#64 (.name "a5") = some 0x380 ∧
    decode (.src .C3rs1) (assemble 0x4000 0x380) = 15 := by
  refine ⟨⟨"a5", 15, rfl, by decide +kernel, rfl⟩, ⟨0x380, _, rfl, by decide⟩,
    by decide +kernel, by decide⟩

example : Means (.src .UImm20) 0#64 (.hex 0x80001000) 0x80001000 ∧
    Representable Fmt.UType.decl .u_imm 0x80001000 ∧
    encode (.src .UImm20) 0#64 (.hex 0x80001000) = some 0x80001000 := by
  refine ⟨rfl, ⟨0x80001000, _, rfl, by decide⟩, by decide⟩

/-! ## Operands that are not decoded to what was encoded -/

/-- The second source register of single precision instructions is encoded in
the field of the first: `fadd.s f0, f0, f3` is assembled with `rs2 = f0`. -/
theorem C58_frs2_violated :
    ∃ n e, n < 32 ∧ encode (.src .Frs2) 0#64 (.name ("f" ++ toString n)) = some e ∧
      decode (.src .Frs2) (assemble 0 e) ≠ (n : Int) ∧
      decode (.src .Frs1) (assemble 0 e) = (n : Int) :=
  ⟨3, 3 * 2 ^ 15, by decide, by decide +kernel, by decide, by decide⟩

theorem number'_name (l : List (String × Nat)) (address : BitVec 64) (s : String) :
    How.number' address (.name s) (.name l) = (l.lookup s).map fun n : Nat => (n : Int) := rfl

/-- No register other than `f0` survives the round trip as second source of a
single precision instruction. -/
theorem C58_frs2_always_violated (s : String) (n : Nat) (_hn : Named .f s n) (_h0 : n ≠ 0)
    (address : BitVec 64) (e : Nat) (he : encode (.src .Frs2) address (.name s) = some e) :
    decode (.src .Frs2) (assemble 0 e) = 0 := by
  have hlist : ∀ p ∈ namesFRegister,
      decode (.src .Frs2) (assemble 0 (insert (bitsOf .RType .rs1) (pattern (p.2 : Int)) 0)) = 0 := by
    decide +kernel
  unfold encode at he
  rw [show (Operand.src SrcOp.Frs2).setter = ⟨.RType, .rs1, .name namesFRegister⟩ from rfl] at he
  rw [number'_name] at he
  cases hl : namesFRegister.lookup s with
  | none => rw [hl] at he; simp at he
  | some m =>
    rw [hl] at he
    have he : insert (bitsOf .RType .rs1) (pattern (m : Int)) 0 = e := Option.some.inj he
    rw [← he]
    exact hlist (s, m) (lookup_mem hl)

/-- The rounding mode operand accepts register names and writes the `rs3`
field; the rounding mode field keeps the bits of the opcode. -/
theorem C58_rm_violated :
    ∃ e, encode (.src .Rm) 0#64 (.name "x3") = some e ∧
      decode (.src .Rm) (assemble 0 e) = 0 ∧ decode (.src .Frs3) (assemble 0 e) = 3 ∧
      ∀ t, written t ≠ none → encode (.src .Rm) 0#64 t = none := by
  refine ⟨3 * 2 ^ 27, by decide +kernel, by decide, by decide, ?_⟩
  intro t ht
  cases t <;> first | rfl | exact absurd rfl ht

/-- `c.swsp`: the offset is encoded with the layout of `c.sw`. -/
theorem C58_swsp_offset_violated :
    ∃ e, Representable Fmt.CSS.decl .css_imm_w 4 ∧
      encode (.src .ICssUimm6x4) 0#64 (.dec 4) = some e ∧
      decode (.src .ICssUimm6x4) (assemble 0 e) = 0 :=
  ⟨0x40, ⟨0x200, _, rfl, by decide⟩, by decide, by decide⟩

/-- `c.sdsp`: the offset is encoded with the layout of `c.sd`. -/
theorem C58_sdsp_offset_violated :
    ∃ e, Representable Fmt.CSS.decl .css_imm_d 64 ∧
      encode (.src .ICssUimm6x8) 0#64 (.dec 64) = some e ∧
      decode (.src .ICssUimm6x8) (assemble 0 e) = 0 :=
  ⟨0x20, ⟨0x80, _, rfl, by decide⟩, by decide, by decide⟩

/-- Stores: no negative decimal offset is accepted, although the field holds
offsets from -2048 to 2047. -/
theorem C58_negative_store_offset_violated (address : BitVec 64) (i : Int) (h : i < 0) :
    encode (.src .SImm12) address (.dec i) = none := by
  have : parse false (.dec i) = none := by
    simp only [parse]
    rw [if_neg (by decide), if_neg (by omega)]
  show ((parse false (.dec i)).map fun v => insert (bitsOf .SType .s_imm) (pattern v) 0) = none
  rw [this]
  rfl

example : Representable Fmt.SType.decl .s_imm (-8) := ⟨0xfe000c00, _, rfl, by decide⟩

/-- A jump to a numeric address of 2^31 or more is refused. -/
theorem C58_high_jump_target_violated (address : BitVec 64) (n : Nat) (h : 2 ^ 31 ≤ n) :
    encode (.src .JImm20) address (.hex n) = none := by
  have : parse true (.hex n) = none := by
    simp only [parse]
    rw [if_neg]
    simp only [if_pos]
    omega
  show (((parse true (.hex n)).map fun v => (v - (address.toNat : Int)) % (2 : Int) ^ 32).map
    fun v => insert (bitsOf .JType .j_imm) (pattern v) 0) = none
  rw [this]
  rfl

/-- Non-vacuous: from 0x80000010 to 0x80000000 the offset is -16. -/
example : Representable Fmt.JType.decl .j_imm (-16) ∧
    Means (.src .JImm20) 0x80000010#64 (.hex 0x80000000) (-16) :=
  ⟨⟨0xff1ff000, _, rfl, by decide⟩, ⟨0x80000000, rfl, by decide⟩⟩

/-- The CSR name `mnstatus` is encoded as another address. -/
theorem C58_mnstatus_violated :
    Named .csr "mnstatus" 0x744 ∧
      encode (.src .Csr) 0#64 (.name "mnstatus") = some (0x743 * 2 ^ 20) := by
  constructor <;> decide +kernel

/-- CSR names the assembler does not know, among them `mtvec`. -/
theorem C58_missing_csr_names_violated :
    ∀ s ∈ ["mtvec", "scounteren", "hpmcounter21h", "hpmcounter31h"],
      (∃ n, Named .csr s n) ∧ encode (.src .Csr) 0#64 (.name s) = none := by
  intro s hs
  simp only [List.mem_cons, List.not_mem_nil, or_false] at hs
  rcases hs with rfl | rfl | rfl | rfl
  · exact ⟨⟨0x305, by decide +kernel⟩, by decide +kernel⟩
  · exact ⟨⟨0x106, by decide +kernel⟩, by decide +kernel⟩
  · exact ⟨⟨0xc95, by decide +kernel⟩, by decide +kernel⟩
  · exact ⟨⟨0xc9f, by decide +kernel⟩, by decide +kernel⟩

/-! ## Which texts are accepted -/

/-- Every register name of the integer, single and double precision registers
is accepted where all 32 registers are allowed. -/
theorem C58_register_names_accepted (n : Nat) (hn : n < 32) :
    namesRegister.lookup ("x" ++ toString n) = some n ∧
      (∀ s, abiX[n]? = some s → namesRegister.lookup s = some n) ∧
      namesFRegister.lookup ("f" ++ toString n) = some n ∧
      (∀ s, abiF[n]? = some s → namesFRegister.lookup ("f" ++ s) = some n) ∧
      namesDRegister.lookup ("d" ++ toString n) = some n ∧
      (∀ s, abiF[n]? = some s → namesDRegister.lookup ("d" ++ s) = some n) := by
  have h : ∀ n ∈ List.range 32, namesRegister.lookup ("x" ++ toString n) = some n ∧
      (abiX[n]?.all fun s => namesRegister.lookup s == some n) ∧
      namesFRegister.lookup ("f" ++ toString n) = some n ∧
      (abiF[n]?.all fun s => namesFRegister.lookup ("f" ++ s) == some n) ∧
      namesDRegister.lookup ("d" ++ toString n) = some n ∧
      (abiF[n]?.all fun s => namesDRegister.lookup ("d" ++ s) == some n) := by
    decide +kernel
  obtain ⟨h1, h2, h3, h4, h5, h6⟩ := h n (List.mem_range.mpr hn)
  refine ⟨h1, ?_, h3, ?_, h5, ?_⟩ <;> intro s hs
  · rw [hs] at h2; simpa using h2
  · rw [hs] at h4; simpa using h4
  · rw [hs] at h6; simpa using h6

/-- A number that is written, fits the field and is not negative for an operand
parsed as unsigned, is accepted by every immediate operand. -/
theorem C58_numbers_accepted (o : Operand) (hk : kind o = .number) (ho : o ∉ misplaced)
    (address : BitVec 64) (i : Int) (h0 : 0 ≤ i) (h1 : i < 2 ^ 31) :
    (encode o address (.dec i)).isSome := by
  obtain ⟨s, hs⟩ := number_setter o hk ho
  unfold encode
  rw [hs]
  have : parse s (.dec i) = some i := by
    simp only [parse]
    cases s
    · rw [if_neg (by decide), if_pos (by omega)]
    · rw [if_pos rfl, if_pos (by omega)]
  show ((parse s (.dec i)).map _).isSome
  rw [this]
  rfl

end Verif.Encoding
