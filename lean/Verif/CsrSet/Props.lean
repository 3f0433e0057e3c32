import Verif.CsrSet.Spec
namespace Verif.CsrSet

/-- Relation between the two maps and the single collection. -/
structure Rel (s : State) (r : Spec.Reg) : Prop where
  idx : ∀ i c, s.byIndex i = some c ↔ c ∈ r ∧ c.index = i
  nam : ∀ n c, s.byName n = some c ↔ c ∈ r ∧ c.name = n

theorem Rel.idx_none {s r} (h : Rel s r) (i : Nat) :
    s.byIndex i = none ↔ ∀ c ∈ r, c.index ≠ i := by
  constructor
  · intro hn c hc hi
    have := (h.idx i c).2 ⟨hc, hi⟩
    simp [hn] at this
  · intro hall
    cases hs : s.byIndex i with
    | none => rfl
    | some c => have := (h.idx i c).1 hs; exact absurd this.2 (hall c this.1)

theorem Rel.nam_none {s r} (h : Rel s r) (n : String) :
    s.byName n = none ↔ ∀ c ∈ r, c.name ≠ n := by
  constructor
  · intro hn c hc hi
    have := (h.nam n c).2 ⟨hc, hi⟩
    simp [hn] at this
  · intro hall
    cases hs : s.byName n with
    | none => rfl
    | some c => have := (h.nam n c).1 hs; exact absurd this.2 (hall c this.1)

theorem Rel.find_idx {s r} (h : Rel s r) (i : Nat) :
    r.find? (fun d => d.index = i) = s.byIndex i := by
  cases hf : r.find? (fun d => d.index = i) with
  | none =>
    simp only [List.find?_eq_none, decide_eq_true_eq] at hf
    exact ((h.idx_none i).2 hf).symm
  | some c =>
    have h1 := List.find?_some hf
    have h2 := List.mem_of_find?_eq_some hf
    exact ((h.idx i c).2 ⟨h2, by simpa using h1⟩).symm

theorem Rel.find_nam {s r} (h : Rel s r) (n : String) :
    r.find? (fun d => d.name = n) = s.byName n := by
  cases hf : r.find? (fun d => d.name = n) with
  | none =>
    simp only [List.find?_eq_none, decide_eq_true_eq] at hf
    exact ((h.nam_none n).2 hf).symm
  | some c =>
    have h1 := List.find?_some hf
    have h2 := List.mem_of_find?_eq_some hf
    exact ((h.nam n c).2 ⟨h2, by simpa using h1⟩).symm

theorem rel_empty : Rel State.empty [] := ⟨by simp [State.empty], by simp [State.empty]⟩

/-- Two registered CSRs with the same index or the same name are the same CSR. -/
theorem Rel.uniq_nam {s r} (h : Rel s r) {c d : Csr} (hc : c ∈ r) (hd : d ∈ r)
    (hn : c.name = d.name) : c = d := by
  have h1 := (h.nam c.name c).2 ⟨hc, rfl⟩
  have h2 := (h.nam c.name d).2 ⟨hd, hn.symm⟩
  exact Option.some.inj (h1.symm.trans h2)

theorem Rel.uniq_idx {s r} (h : Rel s r) {c d : Csr} (hc : c ∈ r) (hd : d ∈ r)
    (hn : c.index = d.index) : c = d := by
  have h1 := (h.idx c.index c).2 ⟨hc, rfl⟩
  have h2 := (h.idx c.index d).2 ⟨hd, hn.symm⟩
  exact Option.some.inj (h1.symm.trans h2)

/-- One call: same answer, relation kept. -/
theorem step_rel {s r} (h : Rel s r) (c : Call) :
    (step s c).1 = (Spec.step r c).1 ∧ Rel (step s c).2 (Spec.step r c).2 := by
  cases c with
  | getIndex i =>
    refine ⟨?_, h⟩
    simp only [step, Spec.step, getIndex, h.find_idx]
    cases s.byIndex i <;> rfl
  | getName n =>
    refine ⟨?_, h⟩
    simp only [step, Spec.step, getName, h.find_nam]
    cases s.byName n <;> rfl
  | remove i =>
    simp only [step, Spec.step, removeCsr]
    cases hi : s.byIndex i with
    | none =>
      have : r.any (fun d => d.index = i) = false := by
        simpa using (h.idx_none i).1 hi
      simp [this, h]
    | some c =>
      obtain ⟨hc, hci⟩ := (h.idx i c).1 hi
      have hn : s.byName c.name = some c := (h.nam _ _).2 ⟨hc, rfl⟩
      have : r.any (fun d => d.index = i) = true := by
        simpa using ⟨c, hc, hci⟩
      simp only [hn, this, if_true]
      refine ⟨trivial, ?_, ?_⟩
      · intro j d
        simp only [upd, List.mem_filter, decide_eq_true_eq]
        by_cases hj : j = i
        · subst hj; simp
        · simp only [hj, if_false, h.idx]
          constructor
          · rintro ⟨h1, h2⟩; exact ⟨⟨h1, by rw [h2]; exact hj⟩, h2⟩
          · rintro ⟨⟨h1, _⟩, h2⟩; exact ⟨h1, h2⟩
      · intro m d
        simp only [upd, List.mem_filter, decide_eq_true_eq]
        by_cases hm : m = c.name
        · subst hm
          simp only [if_true]
          constructor
          · intro h'; cases h'
          · rintro ⟨⟨h1, h2⟩, h3⟩
            have := h.uniq_nam h1 hc h3
            subst this; exact absurd hci h2
        · simp only [hm, if_false, h.nam]
          constructor
          · rintro ⟨h1, h2⟩
            refine ⟨⟨h1, ?_⟩, h2⟩
            intro h3
            have := h.uniq_idx h1 hc (h3.trans hci.symm)
            subst this; exact hm h2.symm
          · rintro ⟨⟨h1, _⟩, h2⟩; exact ⟨h1, h2⟩
  | add o =>
    cases o with
    | none => exact ⟨rfl, h⟩
    | some c =>
      simp only [step, Spec.step, addCsr]
      cases hi : s.byIndex c.index with
      | some d =>
        obtain ⟨hd, hdi⟩ := (h.idx _ _).1 hi
        have : r.any (fun d => d.index = c.index || d.name = c.name) = true := by
          simp only [List.any_eq_true]; exact ⟨d, hd, by simp [hdi]⟩
        rw [this]; exact ⟨rfl, h⟩
      | none =>
        cases hn : s.byName c.name with
        | some d =>
          obtain ⟨hd, hdi⟩ := (h.nam _ _).1 hn
          have : r.any (fun d => d.index = c.index || d.name = c.name) = true := by
            simp only [List.any_eq_true]; exact ⟨d, hd, by simp [hdi]⟩
          rw [this]; exact ⟨rfl, h⟩
        | none =>
          have h1 := (h.idx_none _).1 hi
          have h2 := (h.nam_none _).1 hn
          have : r.any (fun d => d.index = c.index || d.name = c.name) = false := by
            simp only [List.any_eq_false]; intro d hd; simp [h1 d hd, h2 d hd]
          rw [this, if_neg (by decide : ¬ (false = true))]
          refine ⟨rfl, ?_, ?_⟩
          · intro j d
            simp only [upd, List.mem_cons]
            by_cases hj : j = c.index
            · subst hj
              simp only [if_true, Option.some.injEq]
              constructor
              · rintro rfl; exact ⟨Or.inl rfl, rfl⟩
              · rintro ⟨rfl | hd, hdi⟩
                · rfl
                · exact absurd hdi (h1 d hd)
            · simp only [hj, if_false, h.idx]
              constructor
              · rintro ⟨a, b⟩; exact ⟨Or.inr a, b⟩
              · rintro ⟨rfl | a, b⟩
                · exact absurd b.symm hj
                · exact ⟨a, b⟩
          · intro j d
            simp only [upd, List.mem_cons]
            by_cases hj : j = c.name
            · subst hj
              simp only [if_true, Option.some.injEq]
              constructor
              · rintro rfl; exact ⟨Or.inl rfl, rfl⟩
              · rintro ⟨rfl | hd, hdi⟩
                · rfl
                · exact absurd hdi (h2 d hd)
            · simp only [hj, if_false, h.nam]
              constructor
              · rintro ⟨a, b⟩; exact ⟨Or.inr a, b⟩
              · rintro ⟨rfl | a, b⟩
                · exact absurd b.symm hj
                · exact ⟨a, b⟩

theorem run_rel {s r} (h : Rel s r) (cs : List Call) : run s cs = Spec.run r cs := by
  induction cs generalizing s r with
  | nil => rfl
  | cons c cs ih =>
    obtain ⟨h1, h2⟩ := step_rel h c
    simp [run, Spec.run, h1, ih h2]

/-- **C04.** For every sequence of calls on a fresh registry, every answer is the one of a
single collection of CSRs with unique indices and unique names; in particular lookups by
name and by index always agree. -/
theorem C04_registry_refines (cs : List Call) : run .empty cs = Spec.run [] cs :=
  run_rel rel_empty cs

/-- **C04, safety.** No sequence of calls reaches the undefined erase of an end iterator. -/
theorem C04_no_ub (cs : List Call) : Res.ub ∉ run .empty cs := by
  rw [C04_registry_refines]
  generalize ([] : Spec.Reg) = r
  induction cs generalizing r with
  | nil => simp [Spec.run]
  | cons c cs ih =>
    have h : (Spec.step r c).1 ≠ Res.ub := by
      cases c with
      | add o => cases o with
        | none => simp [Spec.step]
        | some c => simp only [Spec.step]; split <;> simp
      | remove i => simp only [Spec.step]; split <;> simp
      | getIndex i => simp only [Spec.step]; split <;> simp
      | getName n => simp only [Spec.step]; split <;> simp
    simp only [Spec.run, List.mem_cons, not_or]
    exact ⟨fun h' => h h'.symm, ih _⟩

/-- Non-vacuity: a history with each kind of answer. -/
example :
    let a : Csr := ⟨1, "mstatus", 0x300⟩
    let b : Csr := ⟨2, "mstatus", 0x301⟩
    let d : Csr := ⟨3, "misa", 0x300⟩
    run .empty [.add none, .add (some a), .add (some b), .add (some d), .getName "mstatus",
      .getIndex 0x300, .remove 0x300, .remove 0x300, .getName "mstatus", .add (some b),
      .getIndex 0x301] =
    [.invalidArgument, .ok, .alreadyExists, .alreadyExists, .found a, .found a, .ok, .notFound,
      .notFound, .ok, .found b] := by decide

end Verif.CsrSet
