import Verif.Decode.Model

/-!
# Deciding questions about all words

Checkers for two questions about instruction patterns, with the proof that
their answer holds for every word: can two patterns match the same word, and
does a set of patterns match every word of a given shape.  They work on partial
knowledge of a word, two numbers `L` and `H` such that every bit set in `L` is
set in the word and every bit set in the word is set in `H`.
-/

namespace Verif.Decode

open BinFmt

/-! ## Compiled constraints -/

/-- The right side of a compiled constraint. -/
inductive CRhs where
  | num (n : Nat)
  | bits (bs : List Bit)
  deriving DecidableEq, Repr

/-- A constraint with its field resolved to bits. -/
structure Cmp where
  bits : List Bit
  rel : Rel
  rhs : CRhs
  deriving DecidableEq, Repr

/-- The right side in a word. -/
def CRhs.value (w : Nat) : CRhs → Nat
  | .num n => n
  | .bits bs => BinFmt.value w bs

/-- Whether the constraint holds of a word. -/
def Cmp.holds (w : Nat) (c : Cmp) : Bool := c.rel.eval (value w c.bits) (c.rhs.value w)

/-- Resolve the field names of a constraint. -/
def Con.compile (f : Format) (c : Con) : Option Cmp :=
  match f.bits c.lhs, c.rhs with
  | some bs, .num n => some ⟨bs, c.rel, .num n⟩
  | some bs, .fld m =>
    match f.bits m with
    | some bs' => some ⟨bs, c.rel, .bits bs'⟩
    | none => none
  | none, _ => none

/-- Resolve a list of constraints. -/
def compileAll (f : Format) : List Con → Option (List Cmp)
  | [] => some []
  | c :: cs =>
    match c.compile f, compileAll f cs with
    | some a, some b => some (a :: b)
    | _, _ => none

/-- The resolved constraints of an instruction. -/
def Inst.cmps (i : Inst) : Option (List Cmp) := compileAll i.fmt.decl i.cons

theorem Con.compile_holds {f : Format} {c : Con} {k : Cmp} (h : c.compile f = some k) (w : Nat) :
    c.holds f w = k.holds w := by
  unfold Con.compile at h
  unfold Con.holds fieldValue
  cases hb : f.bits c.lhs with
  | none => rw [hb] at h; simp at h
  | some bs =>
    rw [hb] at h
    cases hr : c.rhs with
    | num n =>
      rw [hr] at h
      obtain rfl := Option.some.inj h
      rfl
    | fld m =>
      rw [hr] at h
      cases hm : f.bits m with
      | none => simp [hm] at h
      | some bs' =>
        simp only [hm, Option.some.injEq] at h
        subst h
        simp only [Rhs.value, fieldValue, hm, Option.map_some]
        rfl

theorem compileAll_holds {f : Format} {cs : List Con} {ks : List Cmp}
    (h : compileAll f cs = some ks) (w : Nat) :
    cs.all (Con.holds f w) = ks.all (Cmp.holds w) := by
  induction cs generalizing ks with
  | nil =>
    obtain rfl := Option.some.inj h
    rfl
  | cons c cs ih =>
    simp only [compileAll] at h
    cases hc : c.compile f with
    | none => simp [hc] at h
    | some a =>
      cases hr : compileAll f cs with
      | none => simp [hc, hr] at h
      | some b =>
        simp only [hc, hr, Option.some.injEq] at h
        subst h
        simp only [List.all_cons]
        rw [Con.compile_holds hc, ih hr]

theorem Inst.cmps_matches {i : Inst} {ks : List Cmp} (h : i.cmps = some ks) (w : Nat) :
    i.matches w = ks.all (Cmp.holds w) := compileAll_holds h w

theorem Con.compile_none {f : Format} {c : Con} (h : c.compile f = none) (w : Nat) :
    c.holds f w = false := by
  unfold Con.compile at h
  unfold Con.holds fieldValue
  cases hb : f.bits c.lhs with
  | none => rfl
  | some bs =>
    rw [hb] at h
    cases hr : c.rhs with
    | num n => rw [hr] at h; simp at h
    | fld m =>
      rw [hr] at h
      cases hm : f.bits m with
      | none => simp [Rhs.value, fieldValue, hm]
      | some bs' => simp [hm] at h

theorem compileAll_none {f : Format} {cs : List Con} (h : compileAll f cs = none) (w : Nat) :
    cs.all (Con.holds f w) = false := by
  induction cs with
  | nil => simp [compileAll] at h
  | cons c cs ih =>
    simp only [compileAll] at h
    simp only [List.all_cons]
    cases hc : c.compile f with
    | none => rw [Con.compile_none hc]; rfl
    | some a =>
      cases hr : compileAll f cs with
      | none => rw [ih hr, Bool.and_false]
      | some b => simp [hc, hr] at h

/-! ## Partial knowledge -/

/-- What is known of a word. -/
def Between (L H w : Nat) : Prop :=
  ∀ i, (L.testBit i = true → w.testBit i = true) ∧ (w.testBit i = true → H.testBit i = true)

theorem value_mono {bs : List Bit} {w w' : Nat}
    (h : ∀ i, w.testBit i = true → w'.testBit i = true) : value w bs ≤ value w' bs := by
  induction bs with
  | nil => exact Nat.le_refl _
  | cons b bs ih =>
    rw [value_cons, value_cons]
    have : weight (b.get w) bs.length ≤ weight (b.get w') bs.length := by
      cases b with
      | word k =>
        show weight (w.testBit k) _ ≤ weight (w'.testBit k) _
        cases hk : w.testBit k with
        | false => simp [weight]
        | true => rw [h k hk]; exact Nat.le_refl _
      | const c => exact Nat.le_refl _
    omega

/-- The least value of a right side. -/
def CRhs.least (L : Nat) (r : CRhs) : Nat := r.value L

/-- No value in the first interval is related to one in the second. -/
def Rel.impossible (r : Rel) (a A b B : Nat) : Bool :=
  match r with
  | .eq => decide (B < a) || decide (A < b)
  | .ne => a == A && (b == B && a == b)
  | .lt => decide (B ≤ a)
  | .le => decide (B < a)
  | .gt => decide (A ≤ b)
  | .ge => decide (A < b)

/-- Every value in the first interval is related to every one in the second. -/
def Rel.certain (r : Rel) (a A b B : Nat) : Bool :=
  match r with
  | .eq => a == A && (b == B && a == b)
  | .ne => decide (B < a) || decide (A < b)
  | .lt => decide (A < b)
  | .le => decide (A ≤ b)
  | .gt => decide (B < a)
  | .ge => decide (B ≤ a)

theorem Rel.impossible_sound {r : Rel} {a A b B x y : Nat} (h : r.impossible a A b B = true)
    (h1 : a ≤ x) (h2 : x ≤ A) (h3 : b ≤ y) (h4 : y ≤ B) : r.eval x y = false := by
  cases r <;> simp only [Rel.impossible, Bool.or_eq_true, Bool.and_eq_true, decide_eq_true_eq,
    beq_iff_eq] at h <;> simp only [Rel.eval, beq_eq_false_iff_ne, bne_eq_false_iff_eq,
    decide_eq_false_iff_not, ne_eq] <;> omega

theorem Rel.certain_sound {r : Rel} {a A b B x y : Nat} (h : r.certain a A b B = true)
    (h1 : a ≤ x) (h2 : x ≤ A) (h3 : b ≤ y) (h4 : y ≤ B) : r.eval x y = true := by
  cases r <;> simp only [Rel.certain, Bool.or_eq_true, Bool.and_eq_true, decide_eq_true_eq,
    beq_iff_eq] at h <;> simp only [Rel.eval, beq_iff_eq, bne_iff_ne,
    decide_eq_true_eq, ne_eq] <;> omega

/-- The constraint fails for every word between `L` and `H`. -/
def Cmp.impossible (L H : Nat) (c : Cmp) : Bool :=
  c.rel.impossible (value L c.bits) (value H c.bits) (c.rhs.value L) (c.rhs.value H)

/-- The constraint holds for every word between `L` and `H`. -/
def Cmp.certain (L H : Nat) (c : Cmp) : Bool :=
  c.rel.certain (value L c.bits) (value H c.bits) (c.rhs.value L) (c.rhs.value H)

theorem CRhs.value_mono {r : CRhs} {w w' : Nat}
    (h : ∀ i, w.testBit i = true → w'.testBit i = true) : r.value w ≤ r.value w' := by
  cases r with
  | num n => exact Nat.le_refl _
  | bits bs => exact Decode.value_mono h

theorem Cmp.impossible_sound {L H w : Nat} {c : Cmp} (h : c.impossible L H = true)
    (hb : Between L H w) : c.holds w = false :=
  Rel.impossible_sound h (Decode.value_mono fun i => (hb i).1) (Decode.value_mono fun i => (hb i).2)
    (CRhs.value_mono fun i => (hb i).1) (CRhs.value_mono fun i => (hb i).2)

theorem Cmp.certain_sound {L H w : Nat} {c : Cmp} (h : c.certain L H = true)
    (hb : Between L H w) : c.holds w = true :=
  Rel.certain_sound h (Decode.value_mono fun i => (hb i).1) (Decode.value_mono fun i => (hb i).2)
    (CRhs.value_mono fun i => (hb i).1) (CRhs.value_mono fun i => (hb i).2)

/-- The first bit of an operand that is not known. -/
def unknown (L H : Nat) : List Bit → Option Nat
  | [] => none
  | .word i :: bs => if L.testBit i == H.testBit i then unknown L H bs else some i
  | .const _ :: bs => unknown L H bs

/-- An unknown bit of a constraint. -/
def Cmp.unknown (L H : Nat) (c : Cmp) : Option Nat :=
  match Decode.unknown L H c.bits, c.rhs with
  | some i, _ => some i
  | none, .num _ => none
  | none, .bits bs => Decode.unknown L H bs

/-- An unknown bit of the first constraint that is not settled. -/
def pick (L H : Nat) : List Cmp → Option Nat
  | [] => none
  | c :: cs =>
    if c.certain L H then pick L H cs
    else
      match c.unknown L H with
      | some i => some i
      | none => pick L H cs

theorem Between.split {L H w : Nat} (h : Between L H w) (i : Nat) :
    Between L (setBit H i false) w ∨ Between (setBit L i true) H w := by
  cases hw : w.testBit i with
  | false =>
    left
    intro j
    refine ⟨(h j).1, ?_⟩
    rw [setBit_testBit]
    by_cases hj : j = i
    · subst hj; rw [hw]; simp
    · rw [if_neg hj]; exact (h j).2
  | true =>
    right
    intro j
    refine ⟨?_, (h j).2⟩
    rw [setBit_testBit]
    by_cases hj : j = i
    · subst hj; rw [hw]; simp
    · rw [if_neg hj]; exact (h j).1

/-! ## Refutation -/

/-- No word between `L` and `H` satisfies all constraints: one of them fails
everywhere, or this is so after deciding one more bit. -/
def refute : Nat → List Cmp → Nat → Nat → Bool
  | 0, cs, L, H => cs.any (Cmp.impossible L H)
  | n + 1, cs, L, H =>
    cs.any (Cmp.impossible L H) ||
      match pick L H cs with
      | none => false
      | some i => refute n cs L (setBit H i false) && refute n cs (setBit L i true) H

theorem refute_sound {n : Nat} {cs : List Cmp} {L H w : Nat} (h : refute n cs L H = true)
    (hb : Between L H w) : cs.all (Cmp.holds w) = false := by
  have hany : ∀ L H, Between L H w → cs.any (Cmp.impossible L H) = true →
      cs.all (Cmp.holds w) = false := by
    intro L H hb h
    obtain ⟨c, hc, hi⟩ := List.any_eq_true.mp h
    rw [List.all_eq_false]
    exact ⟨c, hc, by rw [Cmp.impossible_sound hi hb]; simp⟩
  induction n generalizing L H with
  | zero => exact hany L H hb h
  | succ n ih =>
    simp only [refute, Bool.or_eq_true] at h
    rcases h with h | h
    · exact hany L H hb h
    · cases hp : pick L H cs with
      | none => rw [hp] at h; simp at h
      | some i =>
        simp only [hp, Bool.and_eq_true] at h
        rcases hb.split i with hb' | hb'
        · exact ih h.1 hb'
        · exact ih h.2 hb'

/-! ## Covers -/

/-- An unknown bit of the first list of constraints that is not refuted. -/
def pickAny (L H : Nat) : List (List Cmp) → Option Nat
  | [] => none
  | cs :: rest =>
    if cs.any (Cmp.impossible L H) then pickAny L H rest
    else
      match pick L H cs with
      | some i => some i
      | none => pickAny L H rest

/-- Every word between `L` and `H` satisfies one of the lists of constraints. -/
def covers : Nat → List (List Cmp) → Nat → Nat → Bool
  | 0, ps, L, H => ps.any (·.all (Cmp.certain L H))
  | n + 1, ps, L, H =>
    ps.any (·.all (Cmp.certain L H)) ||
      match pickAny L H ps with
      | none => false
      | some i => covers n ps L (setBit H i false) && covers n ps (setBit L i true) H

theorem covers_sound {n : Nat} {ps : List (List Cmp)} {L H w : Nat}
    (h : covers n ps L H = true) (hb : Between L H w) :
    ∃ cs ∈ ps, cs.all (Cmp.holds w) = true := by
  have hany : ∀ L H, Between L H w → ps.any (·.all (Cmp.certain L H)) = true →
      ∃ cs ∈ ps, cs.all (Cmp.holds w) = true := by
    intro L H hb h
    obtain ⟨cs, hc, hi⟩ := List.any_eq_true.mp h
    refine ⟨cs, hc, List.all_eq_true.mpr fun c hcc => ?_⟩
    exact Cmp.certain_sound (List.all_eq_true.mp hi c hcc) hb
  induction n generalizing L H with
  | zero => exact hany L H hb h
  | succ n ih =>
    simp only [covers, Bool.or_eq_true] at h
    rcases h with h | h
    · exact hany L H hb h
    · cases hp : pickAny L H ps with
      | none => rw [hp] at h; simp at h
      | some i =>
        simp only [hp, Bool.and_eq_true] at h
        rcases hb.split i with hb' | hb'
        · exact ih h.1 hb'
        · exact ih h.2 hb'

/-! ## Fixed bits -/

/-- The word bits fixed by `bits = v`. -/
def eqBits (v : Nat) : List Bit → List (Nat × Bool)
  | [] => []
  | .word i :: bs => (i, v.testBit bs.length) :: eqBits v bs
  | .const _ :: bs => eqBits v bs

theorem eqBits_sound {v w : Nat} {bs : List Bit} (h : value w bs = v % 2 ^ bs.length) :
    ∀ p ∈ eqBits v bs, w.testBit p.1 = p.2 := by
  induction bs with
  | nil => intro p hp; simp [eqBits] at hp
  | cons b bs ih =>
    obtain ⟨hb, hr⟩ := value_cons_eq h
    cases b with
    | word k =>
      intro p hp
      simp only [eqBits, List.mem_cons] at hp
      rcases hp with rfl | hp
      · exact hb
      · exact ih hr p hp
    | const c => exact ih hr

/-- The bits fixed by the equality constraints. -/
def fixedBits : List Cmp → List (Nat × Bool)
  | [] => []
  | c :: cs =>
    match c.rel, c.rhs with
    | .eq, .num n => eqBits n c.bits ++ fixedBits cs
    | _, _ => fixedBits cs

theorem fixedBits_sound {cs : List Cmp} {w : Nat} (h : cs.all (Cmp.holds w) = true) :
    ∀ p ∈ fixedBits cs, w.testBit p.1 = p.2 := by
  induction cs with
  | nil => intro p hp; simp [fixedBits] at hp
  | cons c cs ih =>
    simp only [List.all_cons, Bool.and_eq_true] at h
    intro p hp
    unfold fixedBits at hp
    split at hp
    · rename_i n hrel hrhs
      rcases List.mem_append.mp hp with hp | hp
      · have hv : value w c.bits = n := by
          have := h.1
          simpa [Cmp.holds, hrel, hrhs, Rel.eval, CRhs.value] using this
        refine eqBits_sound ?_ p hp
        rw [Nat.mod_eq_of_lt (hv ▸ value_lt w c.bits)]
        exact hv
      · exact ih h.2 p hp
    · exact ih h.2 p hp

/-- The mask of a list of fixed bits. -/
def maskOf : List (Nat × Bool) → Nat
  | [] => 0
  | p :: l => 2 ^ p.1 ||| maskOf l

/-- The value of a list of fixed bits. -/
def valOf : List (Nat × Bool) → Nat
  | [] => 0
  | p :: l => (if p.2 then 2 ^ p.1 else 0) ||| valOf l

theorem valOf_le {l : List (Nat × Bool)} {w k : Nat} (h : ∀ p ∈ l, w.testBit p.1 = p.2)
    (hk : (valOf l).testBit k = true) : w.testBit k = true := by
  induction l with
  | nil => simp [valOf] at hk
  | cons p l ih =>
    simp only [valOf, Nat.testBit_or, Bool.or_eq_true] at hk
    rcases hk with hk | hk
    · by_cases hp : p.2 = true
      · rw [if_pos hp] at hk
        have : p.1 = k := by
          by_cases he : p.1 = k
          · exact he
          · rw [Nat.testBit_two_pow_of_ne he] at hk; simp at hk
        rw [← this, h p List.mem_cons_self, hp]
      · rw [if_neg hp] at hk; simp at hk
    · exact ih (fun q hq => h q (List.mem_cons_of_mem _ hq)) hk

theorem maskOf_val {l : List (Nat × Bool)} {w k : Nat} (h : ∀ p ∈ l, w.testBit p.1 = p.2)
    (hk : (maskOf l).testBit k = true) : w.testBit k = (valOf l).testBit k := by
  induction l with
  | nil => simp [maskOf] at hk
  | cons p l ih =>
    have h' : ∀ q ∈ l, w.testBit q.1 = q.2 := fun q hq => h q (List.mem_cons_of_mem _ hq)
    cases hw : w.testBit k with
    | false =>
      cases hv : (valOf (p :: l)).testBit k with
      | false => rfl
      | true => rw [valOf_le h hv] at hw; exact absurd hw (by simp)
    | true =>
      symm
      simp only [maskOf, Nat.testBit_or, Bool.or_eq_true] at hk
      simp only [valOf, Nat.testBit_or, Bool.or_eq_true]
      rcases hk with hk | hk
      · left
        have : p.1 = k := by
          by_cases he : p.1 = k
          · exact he
          · rw [Nat.testBit_two_pow_of_ne he] at hk; simp at hk
        have hp := h p List.mem_cons_self
        rw [this, hw] at hp
        rw [← hp, if_pos rfl, this]
        exact Nat.testBit_two_pow_self
      · right
        rw [← ih h' hk, hw]

/-- Mask and value of the bits an instruction fixes. -/
def Inst.maskVal (i : Inst) : Nat × Nat :=
  match i.cmps with
  | some cs => (maskOf (fixedBits cs), valOf (fixedBits cs))
  | none => (0, 0)

theorem Inst.maskVal_le {i : Inst} {w k : Nat} (h : i.matches w = true)
    (hk : (i.maskVal.2).testBit k = true) : w.testBit k = true := by
  unfold Inst.maskVal at hk
  cases hc : i.cmps with
  | none => rw [hc] at hk; simp at hk
  | some cs =>
    rw [hc] at hk
    rw [Inst.cmps_matches hc] at h
    exact valOf_le (fixedBits_sound h) hk

theorem Inst.maskVal_eq {i : Inst} {w k : Nat} (h : i.matches w = true)
    (hk : (i.maskVal.1).testBit k = true) : w.testBit k = (i.maskVal.2).testBit k := by
  unfold Inst.maskVal at hk ⊢
  cases hc : i.cmps with
  | none => rw [hc] at hk; simp at hk
  | some cs =>
    rw [hc] at hk
    rw [Inst.cmps_matches hc] at h
    exact maskOf_val (fixedBits_sound h) hk

/-- What is known of a 32 bit word from mask and value. -/
def known (m v : Nat) : Nat × Nat := (v, v ||| (0xffffffff ^^^ (0xffffffff &&& m)))

theorem known_between {m v w : Nat} (hw : w < 2 ^ 32)
    (h1 : ∀ k, v.testBit k = true → w.testBit k = true)
    (h2 : ∀ k, m.testBit k = true → w.testBit k = true → v.testBit k = true) :
    Between (known m v).1 (known m v).2 w := by
  intro k
  refine ⟨h1 k, fun hk => ?_⟩
  have hlt : k < 32 := by
    by_cases hk' : k < 32
    · exact hk'
    · have : w < 2 ^ k := Nat.lt_of_lt_of_le hw (Nat.pow_le_pow_right (by decide) (by omega))
      rw [Nat.testBit_lt_two_pow this] at hk
      simp at hk
  show (v ||| (0xffffffff ^^^ (0xffffffff &&& m))).testBit k = true
  have hf : (0xffffffff : Nat).testBit k = true := by
    rw [show (0xffffffff : Nat) = 2 ^ 32 - 1 from rfl, Nat.testBit_two_pow_sub_one]
    simpa using hlt
  rw [Nat.testBit_or, Nat.testBit_xor, Nat.testBit_and, hf]
  cases hm : m.testBit k with
  | false => simp
  | true => simp [h2 k hm hk]

/-- The two instructions cannot match the same word, by masks alone. -/
def clash (a b : Nat × Nat) : Bool := ((a.2 ^^^ b.2) &&& (a.1 &&& b.1)) != 0

theorem clash_sound {a b : Inst} (h : clash a.maskVal b.maskVal = true) (w : Nat)
    (ha : a.matches w = true) : b.matches w = false := by
  cases hb : b.matches w with
  | false => rfl
  | true =>
    exfalso
    unfold clash at h
    rw [bne_iff_ne] at h
    apply h
    apply Nat.eq_of_testBit_eq
    intro k
    rw [Nat.zero_testBit, Nat.testBit_and, Nat.testBit_and, Nat.testBit_xor]
    cases h1 : (a.maskVal.1).testBit k with
    | false => simp
    | true =>
      cases h2 : (b.maskVal.1).testBit k with
      | false => simp
      | true =>
        rw [← Inst.maskVal_eq ha h1, ← Inst.maskVal_eq hb h2]
        simp

/-- The two instructions cannot match the same word, by looking at all
constraints. -/
def apart (a b : Inst) : Bool :=
  match a.cmps, b.cmps with
  | some x, some y =>
    let k := known (a.maskVal.1 ||| b.maskVal.1) (a.maskVal.2 ||| b.maskVal.2)
    refute 16 (x ++ y) k.1 k.2
  | _, _ => true

theorem apart_sound {a b : Inst} (h : apart a b = true) {w : Nat} (hw : w < 2 ^ 32)
    (ha : a.matches w = true) : b.matches w = false := by
  cases hb : b.matches w with
  | false => rfl
  | true =>
    exfalso
    unfold apart at h
    cases hx : a.cmps with
    | none =>
      have : a.matches w = false := compileAll_none hx w
      rw [this] at ha; simp at ha
    | some x =>
      cases hy : b.cmps with
      | none =>
        have : b.matches w = false := compileAll_none hy w
        rw [this] at hb; simp at hb
      | some y =>
        simp only [hx, hy] at h
        have hbt : Between (known (a.maskVal.1 ||| b.maskVal.1) (a.maskVal.2 ||| b.maskVal.2)).1
            (known (a.maskVal.1 ||| b.maskVal.1) (a.maskVal.2 ||| b.maskVal.2)).2 w := by
          apply known_between hw
          · intro k hk
            rw [Nat.testBit_or, Bool.or_eq_true] at hk
            rcases hk with hk | hk
            · exact Inst.maskVal_le ha hk
            · exact Inst.maskVal_le hb hk
          · intro k hk hwk
            rw [Nat.testBit_or, Bool.or_eq_true] at hk
            rw [Nat.testBit_or, Bool.or_eq_true]
            rcases hk with hk | hk
            · left; rw [← Inst.maskVal_eq ha hk]; exact hwk
            · right; rw [← Inst.maskVal_eq hb hk]; exact hwk
        have hf := refute_sound h hbt
        rw [List.all_append, ← Inst.cmps_matches hx, ← Inst.cmps_matches hy, ha, hb] at hf
        simp at hf

end Verif.Decode
