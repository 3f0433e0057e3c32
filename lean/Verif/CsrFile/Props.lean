import Verif.CsrFile.Model
import Verif.CsrFile.Spec
/-
C91: the CSRs a hart is built with, and their numbers.
-/
namespace Verif.CsrFile
open CsrSet (State)

/-- If the names and numbers of the objects to be created are distinct and new, every
registration succeeds and the registry afterwards finds exactly the created objects. -/
theorem construct_ok {w : Nat} (l : List (Created w)) (p : Nat) (s : State)
    (hi : (l.map (·.index)).Nodup) (hn : (l.map (·.name)).Nodup)
    (fi : ∀ e ∈ l, s.byIndex e.index = none) (fn : ∀ e ∈ l, s.byName e.name = none) :
    ∃ s', construct l p s = some s' ∧
      (∀ i, (s'.byIndex i).map (·.name) =
        ((l.find? (·.index = i)).map (·.name)).or ((s.byIndex i).map (·.name))) ∧
      (∀ n, (s'.byName n).map (·.index) =
        ((l.find? (·.name = n)).map (·.index)).or ((s.byName n).map (·.index))) := by
  induction l generalizing p s with
  | nil => exact ⟨s, rfl, by simp, by simp⟩
  | cons e es ih =>
    simp only [List.map_cons, List.nodup_cons, List.mem_map, not_exists, not_and] at hi hn
    have h1 := fi e List.mem_cons_self
    have h2 := fn e List.mem_cons_self
    have hadd : CsrSet.addCsr s (some (e.csr p)) =
        (.ok, ⟨CsrSet.upd s.byIndex e.index (some (e.csr p)),
               CsrSet.upd s.byName e.name (some (e.csr p))⟩) := by
      simp only [CsrSet.addCsr, Created.csr, h1, h2]
    obtain ⟨s', hs', hx, hy⟩ := ih (p + 1)
      ⟨CsrSet.upd s.byIndex e.index (some (e.csr p)),
        CsrSet.upd s.byName e.name (some (e.csr p))⟩ hi.2 hn.2
      (fun d hd => by
        have := hi.1 d hd
        simp only [CsrSet.upd]
        rw [if_neg this]
        exact fi d (List.mem_cons_of_mem _ hd))
      (fun d hd => by
        have := hn.1 d hd
        simp only [CsrSet.upd]
        rw [if_neg this]
        exact fn d (List.mem_cons_of_mem _ hd))
    refine ⟨s', ?_, ?_, ?_⟩
    · simp only [construct, hadd]; exact hs'
    · intro i
      rw [hx i]
      by_cases h : e.index = i
      · subst h
        have : es.find? (·.index = e.index) = none := by
          rw [List.find?_eq_none]
          intro d hd
          simpa using hi.1 d hd
        simp [this, CsrSet.upd, Created.csr]
      · have h' : ¬ i = e.index := fun q => h q.symm
        simp [CsrSet.upd, h, h']
    · intro n
      rw [hy n]
      by_cases h : e.name = n
      · subst h
        have : es.find? (·.name = e.name) = none := by
          rw [List.find?_eq_none]
          intro d hd
          simpa using hn.1 d hd
        simp [this, CsrSet.upd, Created.csr]
      · have h' : ¬ n = e.name := fun q => h q.symm
        simp [CsrSet.upd, h, h']

/-- Every hart has the registers of the hart without floating point and vectors, and is
built with part of those of the hart with both. -/
theorem all_sublist (w : Nat) (fp vec : Bool) : (all w fp vec).Sublist (all w true true) := by
  unfold all
  refine List.Sublist.append (List.Sublist.append (List.Sublist.refl _) ?_) ?_
  · cases fp
    · exact List.nil_sublist _
    · exact List.Sublist.refl _
  · cases vec
    · exact List.nil_sublist _
    · exact List.Sublist.refl _

set_option maxRecDepth 100000 in
theorem nodup_full : ∀ b : Bool, ((all (if b then 32 else 64) true true).map (·.index)).Nodup ∧
    ((all (if b then 32 else 64) true true).map (·.name)).Nodup := by decide +kernel

theorem nodup (w : Nat) (hw : w = 32 ∨ w = 64) (fp vec : Bool) :
    ((all w fp vec).map (·.index)).Nodup ∧ ((all w fp vec).map (·.name)).Nodup := by
  have h : ((all w true true).map (·.index)).Nodup ∧ ((all w true true).map (·.name)).Nodup := by
    rcases hw with h | h <;> subst h
    · exact nodup_full true
    · exact nodup_full false
  exact ⟨h.1.sublist ((all_sublist w fp vec).map _), h.2.sublist ((all_sublist w fp vec).map _)⟩

/-- C91 (construction): building a hart never aborts, with or without floating point and
vectors; afterwards a number finds exactly the register created with that number, and a
name the register created with that name. -/
theorem C91_constructed (w : Nat) (hw : w = 32 ∨ w = 64) (fp vec : Bool) :
    (construct (all w fp vec) 0 State.empty).isSome ∧
      (∀ i n, lookup w fp vec i = some n ↔ ∃ e ∈ all w fp vec, e.index = i ∧ e.name = n) ∧
      (∀ i n, numberOf w fp vec n = some i ↔ ∃ e ∈ all w fp vec, e.index = i ∧ e.name = n) := by
  obtain ⟨hi, hn⟩ := nodup w hw fp vec
  obtain ⟨s, hs, hx, hy⟩ := construct_ok (all w fp vec) 0 State.empty hi hn
    (fun _ _ => rfl) (fun _ _ => rfl)
  have uniq : ∀ {β : Type} [DecidableEq β] (f : Created w → β) (l : List (Created w)) (e : Created w),
      (l.map f).Nodup → e ∈ l → l.find? (fun d => f d = f e) = some e := by
    intro β _ f l e hd he
    induction l with
    | nil => cases he
    | cons d ds ih =>
      simp only [List.map_cons, List.nodup_cons, List.mem_map, not_exists, not_and] at hd
      rcases List.mem_cons.mp he with h | h
      · subst h; simp
      · have : ¬ f d = f e := fun q => hd.1 e h q.symm
        simp [this, ih hd.2 h]
  refine ⟨by rw [hs]; rfl, ?_, ?_⟩
  · intro i n
    have hl : lookup w fp vec i = ((all w fp vec).find? (·.index = i)).map (·.name) := by
      unfold lookup
      rw [hs]
      simp only [Option.bind_some]
      rw [hx i]
      simp [State.empty]
    rw [hl]
    constructor
    · intro h
      obtain ⟨e, he, hen⟩ := Option.map_eq_some_iff.mp h
      have h1 := List.mem_of_find?_eq_some he
      have h2 := List.find?_some he
      exact ⟨e, h1, by simpa using h2, hen⟩
    · rintro ⟨e, he, h1, h2⟩
      rw [← h1, uniq (·.index) _ e hi he]
      simp [h2]
  · intro i n
    have hl : numberOf w fp vec n = ((all w fp vec).find? (·.name = n)).map (·.index) := by
      unfold numberOf
      rw [hs]
      simp only [Option.bind_some]
      rw [hy n]
      simp [State.empty]
    rw [hl]
    constructor
    · intro h
      obtain ⟨e, he, hen⟩ := Option.map_eq_some_iff.mp h
      have h1 := List.mem_of_find?_eq_some he
      have h2 := List.find?_some he
      exact ⟨e, h1, hen, by simpa using h2⟩
    · rintro ⟨e, he, h1, h2⟩
      rw [← h2, uniq (·.name) _ e hn he]
      simp [h1]

example : lookup 32 true true 0xb82 = some "minstreth" := by decide +kernel
example : lookup 64 false false 0xb82 = none := by decide +kernel

/-- Names and numbers of the created registers. -/
def listing (w : Nat) (fp vec : Bool) : List (String × Nat) :=
  (all w fp vec).map fun e => (e.name, e.index)

theorem lookup_iff (w : Nat) (hw : w = 32 ∨ w = 64) (fp vec : Bool) (i : Nat) (n : String) :
    lookup w fp vec i = some n ↔ (n, i) ∈ listing w fp vec := by
  rw [(C91_constructed w hw fp vec).2.1 i n]
  simp only [listing, List.mem_map, Prod.mk.injEq]
  constructor
  · rintro ⟨e, he, h1, h2⟩; exact ⟨e, he, h2, h1⟩
  · rintro ⟨e, he, h1, h2⟩; exact ⟨e, he, h2, h1⟩

theorem listing_full (w : Nat) (fp vec : Bool) {p : String × Nat} (h : p ∈ listing w fp vec) :
    p ∈ listing w true true := ((all_sublist w fp vec).map _).subset h

theorem listing_base (w : Nat) (fp vec : Bool) {p : String × Nat}
    (h : p ∈ listing w false false) : p ∈ listing w fp vec := by
  simp only [listing, all, List.map_append, List.mem_append, Bool.false_eq_true, if_false,
    List.map_nil, List.not_mem_nil, or_false] at h ⊢
  exact .inl (.inl h)

/-- Membership in a list of names and numbers, comparing numbers first. -/
def within (p : String × Nat) (l : List (String × Nat)) : Bool :=
  l.any fun q => q.2 == p.2 && q.1 == p.1

theorem within_mem {p : String × Nat} {l : List (String × Nat)} (h : within p l = true) :
    p ∈ l := by
  obtain ⟨q, hq, he⟩ := List.any_eq_true.mp h
  simp only [Bool.and_eq_true, beq_iff_eq] at he
  obtain ⟨a, b⟩ := p
  obtain ⟨c, d⟩ := q
  simp only at he
  rw [he.1, he.2] at hq
  exact hq

set_option maxRecDepth 100000 in
theorem listed_check : ∀ b : Bool, (listing (if b then 32 else 64) true true).all
    (fun p => within p Spec.table || p.1 == "instreth" || p.1 == "$mode") = true := by
  decide +kernel

theorem listed (b fp vec : Bool) (p : String × Nat) (h : p ∈ listing (if b then 32 else 64) fp vec)
    (h1 : p.1 ≠ "instreth") (h2 : p.1 ≠ "$mode") : p ∈ Spec.table := by
  have := List.all_eq_true.mp (listed_check b) p (listing_full _ fp vec h)
  simp only [Bool.or_eq_true, beq_iff_eq, h1, h2, or_false] at this
  exact within_mem this

/-- C91 (numbers): whatever register a hart finds at a number is the one the ISA has at
that number, `instreth` and the simulator's own `$mode` aside. -/
theorem C91_numbers_partial (w : Nat) (hw : w = 32 ∨ w = 64) (fp vec : Bool) (i : Nat)
    (n : String) (h : lookup w fp vec i = some n) (h1 : n ≠ "instreth") (h2 : n ≠ "$mode") :
    (n, i) ∈ Spec.table := by
  rw [lookup_iff w hw] at h
  rcases hw with hw | hw <;> subst hw
  · exact listed true fp vec (n, i) h h1 h2
  · exact listed false fp vec (n, i) h h1 h2

/-- No name and no number occurs twice in the ISA's table. -/
theorem table_nodup : (Spec.table.map (·.1)).Nodup ∧ (Spec.table.map (·.2)).Nodup := by
  decide +kernel

/-- C91, the number of `instreth`: on RV32 the register is found at 0x082, a number of the
unprivileged read/write range that the ISA does not assign, and nothing is found at its
own number 0xc82, so reading `instreth` is an illegal instruction. -/
theorem C91_instreth_violated (fp vec : Bool) :
    ("instreth", 0xc82) ∈ Spec.table ∧ lookup 32 fp vec 0xc82 = none ∧
      lookup 32 fp vec 0x082 = some "instreth" ∧ (∀ n, (n, 0x082) ∉ Spec.table) ∧
      Spec.readOnlyNumber 0xc82 = true ∧ Spec.readOnlyNumber 0x082 = false := by
  refine ⟨by decide +kernel, ?_, ?_, ?_, rfl, rfl⟩
  · cases h : lookup 32 fp vec 0xc82 with
    | none => rfl
    | some n =>
      rw [lookup_iff 32 (.inl rfl)] at h
      have : ∀ fp vec : Bool, 0xc82 ∉ (listing 32 fp vec).map (·.2) := by decide +kernel
      exact absurd (List.mem_map_of_mem (f := (·.2)) h) (this fp vec)
  · rw [lookup_iff 32 (.inl rfl)]
    have : ∀ fp vec : Bool, ("instreth", 0x082) ∈ listing 32 fp vec := by decide +kernel
    exact this fp vec
  · intro n h
    have : 0x082 ∉ Spec.table.map (·.2) := by decide +kernel
    exact this (List.mem_map_of_mem (f := (·.2)) h)

set_option maxRecDepth 100000 in
theorem listed_unprivileged_check : ∀ b : Bool, Spec.table.all
    (fun p => within p (listing (if b then 32 else 64) false false) || p.1 == "instreth" ||
      !(Spec.unprivileged (if b then 32 else 64) false false).contains p.1) = true := by
  decide +kernel

theorem listed_unprivileged (b fp vec : Bool) (p : String × Nat) (hp : p ∈ Spec.table)
    (hn : p.1 ∈ Spec.unprivileged (if b then 32 else 64) fp vec) (h1 : p.1 ≠ "instreth") :
    p ∈ listing (if b then 32 else 64) fp vec := by
  have split : p.1 ∈ Spec.unprivileged (if b then 32 else 64) false false ∨
      (fp = true ∧ p.1 ∈ ["fflags", "frm", "fcsr"]) ∨
      (vec = true ∧ p.1 ∈ ["vl", "vtype", "vlenb", "vstart", "vxsat", "vxrm", "vcsr"]) := by
    unfold Spec.unprivileged at hn ⊢
    simp only [List.mem_append] at hn ⊢
    rcases hn with (hn | hn) | hn
    · exact .inl (.inl (.inl hn))
    · cases fp
      · cases hn
      · exact .inr (.inl ⟨rfl, hn⟩)
    · cases vec
      · cases hn
      · exact .inr (.inr ⟨rfl, hn⟩)
  have pick : ∀ (names : List String) (l : List (String × Nat)),
      Spec.table.all (fun p => within p l || !names.contains p.1) = true →
      p.1 ∈ names → p ∈ l := by
    intro names l hc hm
    have := List.all_eq_true.mp hc p hp
    simp only [Bool.or_eq_true, Bool.not_eq_true', List.contains_eq_mem, decide_eq_false_iff_not,
      hm, not_true_eq_false, or_false] at this
    exact within_mem this
  rcases split with h | ⟨h, hm⟩ | ⟨h, hm⟩
  · have := List.all_eq_true.mp (listed_unprivileged_check b) p hp
    simp only [Bool.or_eq_true, Bool.not_eq_true', List.contains_eq_mem, decide_eq_false_iff_not,
      h, h1, beq_iff_eq, not_true_eq_false, or_false] at this
    exact listing_base _ fp vec (within_mem this)
  · subst h
    have := pick _ ((fpCsrs 32).map fun e => (e.name, e.index)) (by decide +kernel) hm
    have : p ∈ (fpCsrs (if b then 32 else 64)).map fun e => (e.name, e.index) := this
    simp only [listing, all, List.map_append, List.mem_append]
    exact .inl (.inr this)
  · subst h
    have := pick _ ((vecCsrs 32).map fun e => (e.name, e.index)) (by decide +kernel) hm
    have : p ∈ (vecCsrs (if b then 32 else 64)).map fun e => (e.name, e.index) := this
    simp only [listing, all, List.map_append, List.mem_append]
    exact .inr this

/-- C91 (unprivileged registers): every unprivileged counter but `instreth`, and the
registers of the floating-point and vector extensions when present, are found at their
numbers. -/
theorem C91_unprivileged_partial (w : Nat) (hw : w = 32 ∨ w = 64) (fp vec : Bool)
    (n : String) (i : Nat) (hp : (n, i) ∈ Spec.table) (hn : n ∈ Spec.unprivileged w fp vec)
    (h1 : n ≠ "instreth") : lookup w fp vec i = some n := by
  rw [lookup_iff w hw]
  rcases hw with hw | hw <;> subst hw
  · exact listed_unprivileged true fp vec (n, i) hp hn h1
  · exact listed_unprivileged false fp vec (n, i) hp hn h1

example : ("hpmcounter31h", 0xc9f) ∈ Spec.table ∧
    "hpmcounter31h" ∈ Spec.unprivileged 32 true true := by decide +kernel

/-- The required registers a hart is built without. -/
def absent : List String :=
  ["mvendorid", "marchid", "mimpid", "mconfigptr", "mcounteren", "satp", "mstatush",
   "menvcfgh"] ++ (Spec.family "mhpmevent" "" 0).map (·.1)

set_option maxRecDepth 100000 in
theorem listed_required_check : ∀ b : Bool, Spec.table.all
    (fun p => within p (listing (if b then 32 else 64) false false) || absent.contains p.1 ||
      !(Spec.required (if b then 32 else 64)).contains p.1) = true := by decide +kernel

theorem listed_required (b fp vec : Bool) (p : String × Nat) (hp : p ∈ Spec.table)
    (hn : p.1 ∈ Spec.required (if b then 32 else 64)) (h1 : p.1 ∉ absent) :
    p ∈ listing (if b then 32 else 64) fp vec := by
  have := List.all_eq_true.mp (listed_required_check b) p hp
  simp only [Bool.or_eq_true, Bool.not_eq_true', List.contains_eq_mem, decide_eq_false_iff_not,
    decide_eq_true_eq, h1, hn, not_true_eq_false, or_false] at this
  exact listing_base _ fp vec (within_mem this)

set_option maxRecDepth 100000 in
theorem listed_absent_check : ∀ b : Bool, Spec.table.all (fun p =>
    !((listing (if b then 32 else 64) true true).map (·.2)).contains p.2 ||
      !absent.contains p.1) = true := by decide +kernel

theorem listed_absent (b fp vec : Bool) (p : String × Nat) (hp : p ∈ Spec.table)
    (h : p.1 ∈ absent) : p.2 ∉ (listing (if b then 32 else 64) fp vec).map (·.2) := by
  have := List.all_eq_true.mp (listed_absent_check b) p hp
  simp only [Bool.or_eq_true, Bool.not_eq_true', List.contains_eq_mem, decide_eq_false_iff_not,
    h, not_true_eq_false, or_false] at this
  intro hm
  obtain ⟨q, hq, he⟩ := List.mem_map.mp hm
  exact this (List.mem_map.mpr ⟨q, listing_full _ fp vec hq, he⟩)

/-- C91 (required registers): the required registers that are not in the list `absent` are
found at their numbers. -/
theorem C91_required_partial (w : Nat) (hw : w = 32 ∨ w = 64) (fp vec : Bool)
    (n : String) (i : Nat) (hp : (n, i) ∈ Spec.table) (hn : n ∈ Spec.required w)
    (h1 : n ∉ absent) : lookup w fp vec i = some n := by
  rw [lookup_iff w hw]
  rcases hw with hw | hw <;> subst hw
  · exact listed_required true fp vec (n, i) hp hn h1
  · exact listed_required false fp vec (n, i) hp hn h1

example : ("sepc", 0x141) ∈ Spec.table ∧ "sepc" ∈ Spec.required 64 ∧ "sepc" ∉ absent := by
  decide +kernel

/-- C91, missing registers: nothing is found at the numbers of the registers in `absent` –
among them `mvendorid`, `marchid`, `mimpid`, `mcounteren` and `satp`, which the
privileged architecture requires of a hart with these privilege modes. -/
theorem C91_absent_violated (w : Nat) (hw : w = 32 ∨ w = 64) (fp vec : Bool)
    (n : String) (i : Nat) (hp : (n, i) ∈ Spec.table) (hn : n ∈ absent) :
    lookup w fp vec i = none := by
  cases h : lookup w fp vec i with
  | none => rfl
  | some m =>
    rw [lookup_iff w hw] at h
    have h' := List.mem_map_of_mem (f := (·.2)) h
    rcases hw with hw | hw <;> subst hw
    · exact absurd h' (listed_absent true fp vec (n, i) hp hn)
    · exact absurd h' (listed_absent false fp vec (n, i) hp hn)

example : ∀ n ∈ ["mvendorid", "marchid", "mimpid", "mcounteren", "satp"],
    n ∈ absent ∧ n ∈ Spec.required 32 ∧ n ∈ Spec.required 64 ∧
      n ∈ Spec.table.map (·.1) := by decide +kernel

/-- C91 (the simulator's own register): `$mode`, through which the privilege mode could be
changed, is not found at any number a CSR instruction can name. -/
theorem C91_mode_hidden (w : Nat) (hw : w = 32 ∨ w = 64) (fp vec : Bool) (i : BitVec 12) :
    lookup w fp vec i.toNat ≠ some "$mode" := by
  intro h
  rw [lookup_iff w hw] at h
  have : ∀ b fp vec : Bool, ∀ p ∈ listing (if b then 32 else 64) fp vec,
      p.1 = "$mode" → 4096 ≤ p.2 := by decide +kernel
  have hi := i.isLt
  rcases hw with hw | hw <;> subst hw
  · have := this true fp vec _ h rfl; dsimp only at this; omega
  · have := this false fp vec _ h rfl; dsimp only at this; omega

example (fp vec : Bool) : lookup 32 fp vec 0x1800 = some "$mode" := by
  rw [lookup_iff 32 (.inl rfl)]
  have : ∀ fp vec : Bool, ("$mode", 0x1800) ∈ listing 32 fp vec := by decide +kernel
  exact this fp vec

/-- Names of the upper halves, with the counter each reads. -/
def halves (w : Nat) (fp vec : Bool) : List (String × Option String) :=
  (all w fp vec).filterMap fun e =>
    match e.cls with
    | .high low => some (e.name, low)
    | _ => none

/-- C91 (upper halves): on RV32 every upper half but those of `mhpmcounter3` to
`mhpmcounter31` belongs to the counter with the name without the `h`. -/
theorem C91_halves_partial (fp vec : Bool) (n : String) (low : Option String)
    (h : (n, low) ∈ halves 32 fp vec) (hn : ∀ k : Nat, n ≠ "mhpmcounter" ++ toString k ++ "h") :
    ∃ m, low = some m ∧ n = m ++ "h" := by
  have key : ∀ fp vec : Bool, ∀ p ∈ halves 32 fp vec,
      p.2.map (· ++ "h") = some p.1 ∨
      p.1 ∈ perf.map (fun k => "mhpmcounter" ++ toString k ++ "h") := by decide +kernel
  rcases key fp vec _ h with h | h
  · obtain ⟨m, hm, he⟩ := Option.map_eq_some_iff.mp h
    exact ⟨m, hm, he.symm⟩
  · obtain ⟨k, _, hk⟩ := List.mem_map.mp h
    exact absurd hk.symm (hn k)

example : ("hpmcounter7h", some "hpmcounter7") ∈ halves 32 false true := by decide +kernel

/-- C91, upper halves: on RV32 each of `mhpmcounter3h` to `mhpmcounter31h` holds a pointer
past the end of its counter, so reading it is undefined behaviour. -/
theorem C91_halves_violated (fp vec : Bool) (k : Nat) (h3 : 3 ≤ k) (h31 : k ≤ 31) :
    ("mhpmcounter" ++ toString k ++ "h", none) ∈ halves 32 fp vec := by
  have key : ∀ fp vec : Bool, ∀ k ∈ perf,
      ("mhpmcounter" ++ toString k ++ "h", none) ∈ halves 32 fp vec := by decide +kernel
  refine key fp vec k ?_
  simp only [perf, List.mem_map, List.mem_range]
  exact ⟨k - 3, by omega, by omega⟩

end Verif.CsrFile
