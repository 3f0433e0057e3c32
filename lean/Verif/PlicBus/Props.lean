import Verif.PlicBus.Model
import Verif.PlicBus.Spec
import Verif.Plic.Props

/-!
# C122: a configuration text sets what it says

# C123: accesses to the PLIC over the bus
-/

namespace Verif.PlicBus

open Verif.Plic (Plic upd)
open Verif.Shell (Text sp dig digitsValue)
open Spec (Numeral Blank Source Enable Context Configured)

/-! ## Reading back what is written -/

theorem value_eq (t : Text) : digitsValue 10 t = Spec.value t := by
  unfold digitsValue Spec.value
  congr 1
  funext n c
  rw [Nat.mul_comm]

def Stop (p : Char → Bool) (t : Text) : Prop := ∀ c ∈ t.head?, p c = false

theorem takeWhile_stop {p : Char → Bool} {l r : Text} (hl : ∀ c ∈ l, p c = true) (hr : Stop p r) :
    (l ++ r).takeWhile p = l := by
  rw [List.takeWhile_append_of_pos hl]
  cases r with
  | nil => simp
  | cons c r => simp [hr c rfl]

theorem dropWhile_stop {p : Char → Bool} {l r : Text} (hl : ∀ c ∈ l, p c = true) (hr : Stop p r) :
    (l ++ r).dropWhile p = r := by
  rw [List.dropWhile_append_of_pos hl]
  cases r with
  | nil => simp
  | cons c r => simp [hr c rfl]

theorem takeNum_eq {n r : Text} (hn : Numeral n) (hr : Stop dig r) :
    takeNum (n ++ r) = some (Spec.value n, r) := by
  obtain ⟨h0, h1, h2⟩ := hn
  unfold takeNum
  rw [takeWhile_stop h1 hr, dropWhile_stop h1 hr, value_eq, if_neg h0, if_pos h2]

theorem skip_eq {b r : Text} (hb : Blank b) (hr : Stop sp r) : skip (b ++ r) = r :=
  dropWhile_stop hb hr

theorem sp_dig {c : Char} (h : sp c = true) : dig c = false := by
  unfold sp at h
  unfold dig
  simp only [Bool.or_eq_true, decide_eq_true_eq] at h
  rcases h with (((rfl | rfl) | rfl) | rfl) | rfl <;> rfl

theorem dig_sp {c : Char} (h : dig c = true) : sp c = false := by
  cases h2 : sp c with
  | false => rfl
  | true => rw [sp_dig h2] at h; cases h

theorem stop_blank {b r : Text} (hb : Blank b) (hr : Stop dig r) : Stop dig (b ++ r) := by
  cases b with
  | nil => exact hr
  | cons c b =>
    intro x hx
    cases hx
    exact sp_dig (hb c List.mem_cons_self)

theorem stop_numeral {n r : Text} (hn : Numeral n) : Stop sp (n ++ r) := by
  obtain ⟨h0, h1, _⟩ := hn
  cases n with
  | nil => exact absurd rfl h0
  | cons c n =>
    intro x hx
    cases hx
    exact dig_sp (h1 c List.mem_cons_self)

theorem stop_cons {p : Char → Bool} {c : Char} {r : Text} (h : p c = false) : Stop p (c :: r) := by
  intro x hx
  cases hx
  exact h

theorem stop_nil {p : Char → Bool} : Stop p [] := fun _ hx => by cases hx

/-- The text begins with something that is neither a digit nor a blank. -/
def Edge (r : Text) : Prop := Stop dig r ∧ Stop sp r

theorem sourceItem_eq {nS : Nat} {i : Source} (h : i.Ok nS) {r : Text} (hr : Edge r) :
    sourceItem (i.text ++ r) = (endItem r).map fun u => (Spec.value i.source, Spec.value i.priority, u) := by
  obtain ⟨h1, h2, h3, h4, h5, _⟩ := h
  unfold sourceItem Source.text
  simp only [List.append_assoc, List.cons_append]
  rw [takeNum_eq h1 (stop_blank h3 (stop_cons rfl))]
  simp only [Option.bind_some]
  rw [skip_eq h3 (stop_cons rfl)]
  simp only [lit, if_pos, Option.bind_some]
  rw [skip_eq h4 (stop_numeral h2), takeNum_eq h2 (stop_blank h5 hr.1)]
  simp only [Option.bind_some]
  rw [skip_eq h5 hr.2]

theorem contextHead_eq {nS nC : Nat} {i : Context} (h : i.Ok nS nC) {r : Text}
    (hr : Stop sp (Spec.enablesText i.enables ++ r)) :
    contextHead (i.text ++ r) =
      some (Spec.value i.context, Spec.value i.threshold, Spec.enablesText i.enables ++ r) := by
  obtain ⟨h1, h2, _, _, _, h3, h4, h5, h6⟩ := h
  unfold contextHead Context.text
  simp only [List.append_assoc, List.cons_append]
  rw [takeNum_eq h1 (stop_blank h3 (stop_cons rfl))]
  simp only [Option.bind_some]
  rw [skip_eq h3 (stop_cons rfl)]
  simp only [lit, if_pos, Option.bind_some]
  rw [skip_eq h4 (stop_numeral h2), takeNum_eq h2 (stop_blank h5 (stop_cons rfl))]
  simp only [Option.bind_some]
  rw [skip_eq h5 (stop_cons rfl)]
  simp only [lit, if_pos, Option.map_some]
  rw [skip_eq h6 hr]

def digit (b : Bool) : Nat := if b then 1 else 0

theorem enableItem_eq {nS : Nat} {i : Enable} (h : i.Ok nS) {sep : Char} {last : Bool} {r : Text}
    (hsep : (sep = ',' ∧ last = false) ∨ (sep = ';' ∧ last = true)) (hr : Stop sp r) :
    enableItem (i.text sep ++ r) = some (Spec.value i.source, digit i.enable, last, r) := by
  obtain ⟨h1, _, h3, h4, h5, h6⟩ := h
  have hs : sp sep = false := by rcases hsep with ⟨rfl, _⟩ | ⟨rfl, _⟩ <;> rfl
  have ht : ∀ u, terminator (sep :: u) = some (last, u) := by
    intro u
    rcases hsep with ⟨rfl, rfl⟩ | ⟨rfl, rfl⟩ <;> rfl
  have hd : ∀ u, takeDigit ((if i.enable then '1' else '0') :: u) = some (digit i.enable, u) := by
    intro u
    cases i.enable <;> rfl
  have he : sp (if i.enable then '1' else '0') = false := by cases i.enable <;> rfl
  unfold enableItem Enable.text
  simp only [List.append_assoc, List.cons_append]
  rw [takeNum_eq h1 (stop_blank h3 (stop_cons rfl))]
  simp only [Option.bind_some]
  rw [skip_eq h3 (stop_cons rfl)]
  simp only [lit, if_pos, Option.bind_some]
  rw [skip_eq h4 (stop_cons he), hd]
  simp only [Option.bind_some]
  rw [skip_eq h5 (stop_cons hs), ht]
  simp only [Option.map_some]
  rw [skip_eq h6 hr]

/-! ## The priorities -/

/-- What a list of items does to the priorities. -/
def setPrios (p : Plic) (l : List Source) : Plic :=
  l.foldl (fun q i => { q with prio := upd q.prio (Spec.value i.source) (BitVec.ofNat 32 (Spec.value i.priority)) }) p

theorem sources_eq (l : List Source) (final : Bool) :
    ∀ (n : Nat) (p : Plic), (∀ i ∈ l, i.Ok p.nS) → l.length < n →
      sources n p (Spec.sourceText l final) = .done (setPrios p l) := by
  induction l with
  | nil =>
    intro n p _ hn
    cases n with
    | zero => exact absurd hn (Nat.not_lt_zero _)
    | succ n => rfl
  | cons i l ih =>
    intro n p h hn
    have hi := h i List.mem_cons_self
    have hl := fun j hj => h j (List.mem_cons_of_mem _ hj)
    cases n with
    | zero => exact absurd hn (Nat.not_lt_zero _)
    | succ n =>
      have hin : ¬ p.nS ≤ Spec.value i.source := Nat.not_le.mpr hi.2.2.2.2.2
      have key : sourceItem (Spec.sourceText (i :: l) final) =
          some (Spec.value i.source, Spec.value i.priority, Spec.sourceText l final) := by
        cases l with
        | nil =>
          cases final with
          | false =>
            have e := sourceItem_eq hi (r := []) ⟨stop_nil, stop_nil⟩
            exact e
          | true =>
            have e := sourceItem_eq hi (r := [';']) ⟨stop_cons rfl, stop_cons rfl⟩
            exact e
        | cons j l =>
          have e := sourceItem_eq hi (r := ';' :: Spec.sourceText (j :: l) final)
            ⟨stop_cons rfl, stop_cons rfl⟩
          exact e
      rw [sources, key]
      dsimp only
      rw [if_neg hin]
      exact ih n _ hl (by simp only [List.length_cons] at hn; omega)

/-! ## The contexts -/

/-- What a pair does. -/
def setOne (p : Plic) (c s : Nat) (e : Bool) : Plic :=
  { p with
    s2c := upd p.s2c s (p.s2c s ++ [c])
    c2s := upd p.c2s c (p.c2s c ++ [s])
    enabled := upd p.enabled c (upd (p.enabled c) (s / 32)
      ((p.enabled c (s / 32) &&& ~~~(1#32 <<< (s % 32))) ||| (if e then 1#32 <<< (s % 32) else 0#32))) }

theorem setEnable_eq (p : Plic) (c s : Nat) (e : Bool) :
    setEnable p c s (digit e) = some (setOne p c s e) := by
  have hlt : s % 32 < 32 := Nat.mod_lt _ (by decide)
  have hp : 2 ^ (s % 32) < 2 ^ 32 := Nat.pow_lt_pow_right (by decide) hlt
  have hd : digit e * 2 ^ (s % 32) < 2 ^ 32 := by
    cases e
    · show 0 * 2 ^ (s % 32) < 2 ^ 32
      omega
    · show 1 * 2 ^ (s % 32) < 2 ^ 32
      omega
  have hv : BitVec.ofNat 32 (digit e * 2 ^ (s % 32)) = if e then 1#32 <<< (s % 32) else 0#32 := by
    cases e
    · show BitVec.ofNat 32 (0 * _) = 0#32
      rw [Nat.zero_mul]
    · show BitVec.ofNat 32 (1 * _) = 1#32 <<< (s % 32)
      apply BitVec.eq_of_toNat_eq
      simp only [BitVec.toNat_ofNat, BitVec.toNat_shiftLeft, Nat.shiftLeft_eq, Nat.one_mul,
        (by decide : 1 % 2 ^ 32 = 1)]
  unfold setEnable setOne
  rw [if_pos hd, hv]

def setMany (p : Plic) (c : Nat) (l : List Enable) : Plic :=
  l.foldl (fun q i => setOne q c (Spec.value i.source) i.enable) p

theorem enablesText_stop {nS : Nat} {l : List Enable} (h : ∀ e ∈ l, e.Ok nS) (hne : l ≠ []) (r : Text) :
    Stop sp (Spec.enablesText l ++ r) := by
  cases l with
  | nil => exact absurd rfl hne
  | cons i l =>
    have hi := (h i List.mem_cons_self).1
    cases l with
    | nil =>
      simp only [Spec.enablesText, Enable.text, List.append_assoc, List.cons_append]
      exact stop_numeral hi
    | cons j l =>
      simp only [Spec.enablesText, Enable.text, List.append_assoc, List.cons_append]
      exact stop_numeral hi

theorem enables_eq (c : Nat) (r : Text) (hr : Stop sp r) (l : List Enable) :
    ∀ (n : Nat) (p : Plic), (∀ e ∈ l, e.Ok p.nS) → l ≠ [] → l.length < n →
      enables n p c (Spec.enablesText l ++ r) = .rest (setMany p c l) r := by
  induction l with
  | nil => intro n p _ hne; exact absurd rfl hne
  | cons i l ih =>
    intro n p h _ hn
    have hi := h i List.mem_cons_self
    have hl : ∀ e ∈ l, e.Ok p.nS := fun j hj => h j (List.mem_cons_of_mem _ hj)
    have hin : ¬ p.nS ≤ Spec.value i.source := Nat.not_le.mpr hi.2.1
    cases n with
    | zero => exact absurd hn (Nat.not_lt_zero _)
    | succ n =>
      cases l with
      | nil =>
        rw [show Spec.enablesText [i] = i.text ';' from rfl, enables, enableItem_eq hi (Or.inr ⟨rfl, rfl⟩) hr]
        dsimp only
        rw [if_neg hin, setEnable_eq]
        rfl
      | cons j l =>
        have e1 : Spec.enablesText (i :: j :: l) ++ r =
            i.text ',' ++ (Spec.enablesText (j :: l) ++ r) := by
          rw [← List.append_assoc]
          rfl
        rw [e1, enables, enableItem_eq hi (Or.inl ⟨rfl, rfl⟩) (enablesText_stop hl (by simp) r)]
        dsimp only
        rw [if_neg hin, setEnable_eq]
        exact ih n _ hl (by simp) (by simp only [List.length_cons] at hn ⊢; omega)

/-- What a context of the list does. -/
def setContext (p : Plic) (i : Context) : Plic :=
  setMany { p with thresh := upd p.thresh (Spec.value i.context) (BitVec.ofNat 32 (Spec.value i.threshold)) }
    (Spec.value i.context) i.enables

theorem setMany_same (c : Nat) (l : List Enable) :
    ∀ p, (setMany p c l).nS = p.nS ∧ (setMany p c l).nC = p.nC ∧ (setMany p c l).prio = p.prio ∧
      (setMany p c l).thresh = p.thresh ∧ (setMany p c l).pend = p.pend ∧
      ((setMany p c l).ready = p.ready ∧ (setMany p c l).gpend = p.gpend) ∧
      (setMany p c l).claimed = p.claimed ∧ ((setMany p c l).irq = p.irq ∧ (setMany p c l).hasIf = p.hasIf) := by
  induction l with
  | nil => intro p; exact ⟨rfl, rfl, rfl, rfl, rfl, ⟨rfl, rfl⟩, rfl, rfl, rfl⟩
  | cons i l ih => intro p; exact ih (setOne p c (Spec.value i.source) i.enable)

theorem enablesText_length (l : List Enable) : l.length ≤ (Spec.enablesText l).length := by
  induction l with
  | nil => exact Nat.le_refl _
  | cons i l ih =>
    cases l with
    | nil => simp [Spec.enablesText, Enable.text]; omega
    | cons j l =>
      simp only [Spec.enablesText, Enable.text, List.length_append, List.length_cons] at ih ⊢
      omega

theorem contextText_stop {nS nC : Nat} {l : List Context} (h : ∀ i ∈ l, i.Ok nS nC) :
    Stop sp (Spec.contextText l) := by
  cases l with
  | nil => exact stop_nil
  | cons i l =>
    have hi := (h i List.mem_cons_self).1
    simp only [Spec.contextText, List.flatMap_cons, Context.text, List.append_assoc, List.cons_append]
    exact stop_numeral hi

theorem contexts_eq (l : List Context) :
    ∀ (n : Nat) (p : Plic), (∀ i ∈ l, i.Ok p.nS p.nC) → l.length < n →
      contexts n p (Spec.contextText l) = .done (l.foldl setContext p) := by
  induction l with
  | nil =>
    intro n p _ hn
    cases n with
    | zero => exact absurd hn (Nat.not_lt_zero _)
    | succ n => rfl
  | cons i l ih =>
    intro n p h hn
    have hi := h i List.mem_cons_self
    have hl : ∀ j ∈ l, j.Ok p.nS p.nC := fun j hj => h j (List.mem_cons_of_mem _ hj)
    obtain ⟨_, _, hc, hne, hes, _⟩ := id hi
    have hin : ¬ p.nC ≤ Spec.value i.context := Nat.not_le.mpr hc
    cases n with
    | zero => exact absurd hn (Nat.not_lt_zero _)
    | succ n =>
      have e1 : Spec.contextText (i :: l) = i.text ++ Spec.contextText l := rfl
      rw [e1, contexts, contextHead_eq hi (enablesText_stop hes hne _)]
      dsimp only
      have hlen : i.enables.length < (Spec.enablesText i.enables ++ Spec.contextText l).length + 1 := by
        have := enablesText_length i.enables
        rw [List.length_append]
        omega
      rw [if_neg hin, enables_eq _ _ (contextText_stop hl) i.enables _
        { p with thresh := upd p.thresh (Spec.value i.context) (BitVec.ofNat 32 (Spec.value i.threshold)) }
        hes hne hlen]
      dsimp only
      have hs := setMany_same (Spec.value i.context) i.enables
        { p with thresh := upd p.thresh (Spec.value i.context) (BitVec.ofNat 32 (Spec.value i.threshold)) }
      refine ih n _ ?_ (by simp only [List.length_cons] at hn; omega)
      rw [hs.1, hs.2.1]
      exact hl

/-! ## What the result is -/

theorem getLast_cons {α β : Type} (f : α → β) (a : α) (l : List α) (d : β) :
    (((a :: l).getLast?).map f).getD d = ((l.getLast?).map f).getD (f a) := by
  cases l with
  | nil => rfl
  | cons b l =>
    rw [List.getLast?_cons_cons]
    cases h : (b :: l).getLast? with
    | none => simp at h
    | some c => rfl

theorem getLast_append {α β : Type} (f : α → β) (l r : List α) (d : β) :
    (((l ++ r).getLast?).map f).getD d = ((r.getLast?).map f).getD (((l.getLast?).map f).getD d) := by
  rw [List.getLast?_append]
  cases h : r.getLast? with
  | none => simp
  | some c => simp

theorem setPrios_prio (l : List Source) :
    ∀ p s, (setPrios p l).prio s = ((Spec.priority l s).map (BitVec.ofNat 32)).getD (p.prio s) := by
  induction l with
  | nil => intro p s; rfl
  | cons i l ih =>
    intro p s
    refine (ih _ s).trans ?_
    unfold Spec.priority
    by_cases h : Spec.value i.source = s
    · rw [List.filter_cons_of_pos (p := fun i : Source => decide (Spec.value i.source = s)) (by simpa using h)]
      rw [Option.map_map, Option.map_map, getLast_cons]
      simp only [upd, h, if_pos, Function.comp]
    · rw [List.filter_cons_of_neg (p := fun i : Source => decide (Spec.value i.source = s)) (by simpa using h)]
      simp only [upd, if_neg (Ne.symm h)]

theorem setPrios_same (l : List Source) :
    ∀ p, (setPrios p l).nS = p.nS ∧ (setPrios p l).nC = p.nC ∧ (setPrios p l).thresh = p.thresh ∧
      (setPrios p l).enabled = p.enabled ∧ (setPrios p l).pend = p.pend ∧
      ((setPrios p l).ready = p.ready ∧ (setPrios p l).gpend = p.gpend) ∧
      (setPrios p l).claimed = p.claimed ∧ ((setPrios p l).irq = p.irq ∧ (setPrios p l).hasIf = p.hasIf) := by
  induction l with
  | nil => intro p; exact ⟨rfl, rfl, rfl, rfl, rfl, ⟨rfl, rfl⟩, rfl, rfl, rfl⟩
  | cons i l ih => intro p; exact ih _

theorem setOne_enabled (p : Plic) (c s : Nat) (e : Bool) (c' s' : Nat) :
    Plic.Spec.enabled (setOne p c s e) c' s' =
      if c' = c ∧ s' = s then e else Plic.Spec.enabled p c' s' := by
  have hlt : s' % 32 < 32 := Nat.mod_lt _ (by decide)
  unfold Plic.Spec.enabled setOne
  dsimp only
  by_cases hc : c' = c
  · subst hc
    simp only [upd, if_pos, true_and]
    by_cases hw : s' / 32 = s / 32
    · simp only [hw, if_pos, BitVec.getLsbD_or, BitVec.getLsbD_and, BitVec.getLsbD_not,
        Plic.getLsbD_one_shl _ _ hlt, hlt, decide_true, Bool.true_and]
      by_cases hs : s' = s
      · subst hs
        rw [if_pos rfl]
        cases e <;> simp [Plic.getLsbD_one_shl _ _ hlt]
      · have hm : s' % 32 ≠ s % 32 := by omega
        rw [if_neg hs]
        cases e <;> simp [Plic.getLsbD_one_shl _ _ hlt, hm]
    · have hs : s' ≠ s := fun h => hw (by rw [h])
      rw [if_neg hw, if_neg hs]
  · simp only [upd, if_neg hc, hc, false_and, if_false]

theorem setMany_enabled (c : Nat) (l : List Enable) :
    ∀ p c' s, Plic.Spec.enabled (setMany p c l) c' s =
      if c' = c then (((l.filter fun e => Spec.value e.source = s).getLast?).map Enable.enable).getD
        (Plic.Spec.enabled p c' s) else Plic.Spec.enabled p c' s := by
  induction l with
  | nil =>
    intro p c' s
    by_cases h : c' = c
    · rw [if_pos h]; rfl
    · rw [if_neg h]; rfl
  | cons i l ih =>
    intro p c' s
    refine (ih _ c' s).trans ?_
    rw [setOne_enabled]
    by_cases hc : c' = c
    · simp only [hc, if_pos, true_and]
      by_cases h : Spec.value i.source = s
      · rw [List.filter_cons_of_pos (p := fun e : Enable => decide (Spec.value e.source = s)) (by simpa using h),
          getLast_cons, if_pos h.symm]
      · rw [List.filter_cons_of_neg (p := fun e : Enable => decide (Spec.value e.source = s)) (by simpa using h),
          if_neg (Ne.symm h)]
    · simp only [hc, if_false, false_and]

theorem contexts_enabled (l : List Context) :
    ∀ p c s, Plic.Spec.enabled (l.foldl setContext p) c s =
      (Spec.enabled l c s).getD (Plic.Spec.enabled p c s) := by
  induction l with
  | nil => intro p c s; rfl
  | cons i l ih =>
    intro p c s
    refine (ih _ c s).trans ?_
    unfold setContext
    rw [setMany_enabled]
    unfold Spec.enabled
    by_cases h : Spec.value i.context = c
    · rw [List.filter_cons_of_pos (p := fun i : Context => decide (Spec.value i.context = c)) (by simpa using h),
        List.flatMap_cons, List.filter_append, getLast_append, if_pos h.symm]
      rfl
    · rw [List.filter_cons_of_neg (p := fun i : Context => decide (Spec.value i.context = c)) (by simpa using h),
        if_neg (Ne.symm h)]
      rfl

theorem contexts_thresh (l : List Context) :
    ∀ p c, (l.foldl setContext p).thresh c =
      ((Spec.threshold l c).map (BitVec.ofNat 32)).getD (p.thresh c) := by
  induction l with
  | nil => intro p c; rfl
  | cons i l ih =>
    intro p c
    refine (ih _ c).trans ?_
    have hs := (setMany_same (Spec.value i.context) i.enables
      { p with thresh := upd p.thresh (Spec.value i.context) (BitVec.ofNat 32 (Spec.value i.threshold)) }).2.2.2.1
    unfold setContext
    rw [hs]
    unfold Spec.threshold
    by_cases h : Spec.value i.context = c
    · rw [List.filter_cons_of_pos (p := fun i : Context => decide (Spec.value i.context = c)) (by simpa using h)]
      rw [Option.map_map, Option.map_map, getLast_cons]
      simp only [upd, h, if_pos, Function.comp]
    · rw [List.filter_cons_of_neg (p := fun i : Context => decide (Spec.value i.context = c)) (by simpa using h)]
      simp only [upd, if_neg (Ne.symm h)]

theorem contexts_same (l : List Context) :
    ∀ p, (l.foldl setContext p).nS = p.nS ∧ (l.foldl setContext p).nC = p.nC ∧
      (l.foldl setContext p).prio = p.prio ∧ (l.foldl setContext p).pend = p.pend ∧
      ((l.foldl setContext p).ready = p.ready ∧ (l.foldl setContext p).gpend = p.gpend) ∧
      (l.foldl setContext p).claimed = p.claimed ∧
      ((l.foldl setContext p).irq = p.irq ∧ (l.foldl setContext p).hasIf = p.hasIf) := by
  induction l with
  | nil => intro p; exact ⟨rfl, rfl, rfl, rfl, ⟨rfl, rfl⟩, rfl, rfl, rfl⟩
  | cons i l ih =>
    intro p
    obtain ⟨a1, a2, a3, a5, ⟨a6, a7⟩, a8, a9, a10⟩ := ih (setContext p i)
    obtain ⟨b1, b2, b3, _, b5, ⟨b6, b7⟩, b8, b9, b10⟩ := setMany_same (Spec.value i.context) i.enables
      { p with thresh := upd p.thresh (Spec.value i.context) (BitVec.ofNat 32 (Spec.value i.threshold)) }
    exact ⟨a1.trans b1, a2.trans b2, a3.trans b3, a5.trans b5, ⟨a6.trans b6, a7.trans b7⟩, a8.trans b8,
      a9.trans b9, a10.trans b10⟩

theorem sourceText_length (l : List Source) (final : Bool) : l.length ≤ (Spec.sourceText l final).length := by
  induction l with
  | nil => exact Nat.le_refl _
  | cons i l ih =>
    cases l with
    | nil => simp [Spec.sourceText, Source.text]; omega
    | cons j l =>
      simp only [Spec.sourceText, Source.text, List.length_append, List.length_cons] at ih ⊢
      omega

theorem contextText_length (l : List Context) : l.length ≤ (Spec.contextText l).length := by
  induction l with
  | nil => exact Nat.le_refl _
  | cons i l ih =>
    simp only [Spec.contextText, List.flatMap_cons, Context.text, List.length_append, List.length_cons] at ih ⊢
    omega

/-- A configuration is applied as written: the text of any list of priorities and the text of any list
of contexts, with any blanks, are accepted, and afterwards every priority, threshold and enable bit is
what the last item that names it says, everything else being as before.  (Partial: every context must be
followed by a semicolon, see `C122_separator_violated`.) -/
theorem C122_configure_partial (p : Plic) (ss : List Source) (final : Bool) (cs : List Context)
    (hs : ∀ i ∈ ss, i.Ok p.nS) (hc : ∀ i ∈ cs, i.Ok p.nS p.nC) :
    ∃ q, configure p (Spec.sourceText ss final) (Spec.contextText cs) = .done q ∧ Configured p q ss cs := by
  obtain ⟨a1, a2, a3, a4, a5, a6, a8, a9⟩ := setPrios_same ss p
  obtain ⟨b1, b2, b3, b5, b6, b8, b9⟩ := contexts_same cs (setPrios p ss)
  refine ⟨cs.foldl setContext (setPrios p ss), ?_, ?_⟩
  · unfold configure
    rw [sources_eq ss final _ p hs (Nat.lt_succ_of_le (sourceText_length _ _))]
    exact contexts_eq cs _ _ (by rw [a1, a2]; exact hc) (Nat.lt_succ_of_le (contextText_length _))
  · refine ⟨fun s => ?_, fun c => ?_, fun c s => ?_, b5.trans a5, ⟨b6.1.trans a6.1, b6.2.trans a6.2⟩,
      b8.trans a8, ⟨b9.1.trans a9.1, b9.2.trans a9.2⟩, b1.trans a1, b2.trans a2⟩
    · rw [b3]
      exact setPrios_prio ss p s
    · rw [contexts_thresh, a3]
    · rw [contexts_enabled]
      unfold Plic.Spec.enabled
      rw [a4]

def aSource (s v : String) : Source := ⟨s.toList, v.toList, [], [' '], []⟩
def aContext (c t : String) (l : List (String × Bool)) : Context :=
  ⟨c.toList, t.toList, l.map fun e => ⟨e.1.toList, e.2, [], [], [], []⟩, [], [], [], [' ']⟩

def aPlic : Plic := Plic.init 40 2 (fun _ => true)

/-- A configuration with two items of either kind. -/
example : (∀ i ∈ [aSource "1" "5", aSource "33" "7"], i.Ok aPlic.nS) ∧
    (∀ i ∈ [aContext "0" "3" [("1", true), ("33", true)], aContext "1" "0" [("33", false)]],
      i.Ok aPlic.nS aPlic.nC) ∧
    Spec.contextText [aContext "0" "3" [("1", true), ("33", true)]] = "0=3, 1,1,33,1;".toList := by
  refine ⟨?_, ?_, by decide⟩ <;>
    simp [aSource, aContext, Source.Ok, Context.Ok, Enable.Ok, Numeral, Blank, Spec.value, dig, sp,
      aPlic, Plic.init]

/-- The contexts are a list separated by semicolons, but the last one may not go without. -/
theorem C122_separator_violated :
    (∃ q, configure aPlic [] "0=3,1,1;".toList = .done q) ∧
    (∃ q, configure aPlic [] "0=3,1,1".toList = .refused q) ∧
    (∃ q, configure aPlic "1=5".toList [] = .done q) :=
  ⟨⟨_, rfl⟩, ⟨_, rfl⟩, ⟨_, rfl⟩⟩

def Res.enabled (r : Res) (c s : Nat) : Bool :=
  match r with
  | .done q => Plic.Spec.enabled q c s
  | _ => false

def Res.refusedPrio (r : Res) (s : Nat) : Option Nat :=
  match r with
  | .refused q => some (q.prio s).toNat
  | _ => none

/-- An enable other than 0 and 1 is accepted, and enables another source; or the shift is undefined. -/
theorem C122_enable_violated :
    (configure aPlic [] "0=3,1,2;".toList).enabled 0 1 = false ∧
    (configure aPlic [] "0=3,1,2;".toList).enabled 0 2 = true ∧
    configure aPlic [] "0=3,31,2;".toList = .ub :=
  ⟨by decide +kernel, by decide +kernel, rfl⟩

/-- A text that is refused has been applied up to where it is wrong. -/
theorem C122_refused_violated :
    (configure aPlic "1=5;99=1".toList []).refusedPrio 1 = some 5 := by decide +kernel

/-! ## C123 -/

theorem offset_eq {base : BitVec 64} {k : Nat} (hb : base.toNat % 2 ^ 24 = 0) (hk : k < 2 ^ 24) :
    offset (base + BitVec.ofNat 64 k) = k := by
  unfold offset
  rw [BitVec.toNat_add, BitVec.toNat_ofNat]
  omega

/-- A PLIC placed at a multiple of 16 MB shows the priority of every source it has, and the threshold of
every context below 3584, at the documented addresses; nothing is changed by looking, and a narrower
load gives the low bytes.  (Partial: see `C123_window_violated`.) -/
theorem C123_load_partial (p : Plic) (base : BitVec 64) (hb : base.toNat % 2 ^ 24 = 0) :
    (∀ s, s < p.nS → s < 1024 →
      load p (base + BitVec.ofNat 64 (Plic.Spec.prioAddr s)) .four = some ((p.prio s).toNat, p) ∧
      load p (base + BitVec.ofNat 64 (Plic.Spec.prioAddr s)) .two = some ((p.prio s).toNat % 2 ^ 16, p) ∧
      load p (base + BitVec.ofNat 64 (Plic.Spec.prioAddr s)) .one = some ((p.prio s).toNat % 2 ^ 8, p)) ∧
    (∀ c, c < p.nC → c < 3584 →
      load p (base + BitVec.ofNat 64 (Plic.Spec.threshAddr c)) .four = some ((p.thresh c).toNat, p) ∧
      load p (base + BitVec.ofNat 64 (Plic.Spec.threshAddr c)) .two = some ((p.thresh c).toNat % 2 ^ 16, p) ∧
      load p (base + BitVec.ofNat 64 (Plic.Spec.threshAddr c)) .one = some ((p.thresh c).toNat % 2 ^ 8, p)) := by
  constructor
  · intro s h1 h2
    have e : p.read (Plic.Spec.prioAddr s) = some (p.prio s, p) := by
      unfold Plic.read Plic.Spec.prioAddr
      rw [if_pos (by omega), if_pos (by omega), show 4 * s / 4 = s by omega]
    have ho := offset_eq hb (k := Plic.Spec.prioAddr s) (by unfold Plic.Spec.prioAddr; omega)
    simp only [load, ho, e, Option.map_some, and_self]
  · intro c h1 h2
    have e : p.read (Plic.Spec.threshAddr c) = some (p.thresh c, p) := by
      unfold Plic.read Plic.Spec.threshAddr
      rw [if_neg (by omega), if_neg (by omega), if_neg (by omega)]
      dsimp only
      rw [show (0x200000 + 0x1000 * c - 0x200000) / 4096 = c by omega, if_neg (by omega),
        if_pos (by omega)]
    have ho := offset_eq hb (k := Plic.Spec.threshAddr c) (by unfold Plic.Spec.threshAddr; omega)
    simp only [load, ho, e, Option.map_some, and_self]

example : load aPlic (0xc000000#64 + BitVec.ofNat 64 (Plic.Spec.threshAddr 1)) .four = some (0, aPlic) :=
  ((C123_load_partial aPlic 0xc000000#64 (by decide)).2 1 (by decide) (by decide)).1

/-- A load of eight bytes is a load of four and then of the next four. -/
theorem C123_load8 (p : Plic) (a : BitVec 64) (ha : a.toNat % 8 = 0) :
    load p a .eight = (load p a .four).bind fun r => (load r.2 (a + 4#64) .four).map fun q =>
      (r.1 + 2 ^ 32 * q.1, q.2) := by
  have ho : offset (a + 4#64) = offset a + 4 := by
    unfold offset
    rw [BitVec.toNat_add, show (4#64).toNat = 4 from rfl]
    omega
  unfold load
  rw [ho]
  cases h : p.read (offset a) with
  | none => rfl
  | some r =>
    simp only [Option.bind_some, Option.map_some]
    cases h2 : r.2.read (offset a + 4) with
    | none => rfl
    | some q => rfl

/-- A store of eight bytes ought to be a store of four and then of the next four; the second never
takes place, for any PLIC, address and value. -/
theorem C123_store8_violated :
    (∀ p a v, store p a v .eight = store p a v .four) ∧
    ((store (Plic.init 200 1 fun _ => true) 0x1000#64 0x300000002 .eight).map fun q => (q.pend 4).toNat) =
      some 0 ∧
    (((store (Plic.init 200 1 fun _ => true) 0x1000#64 2 .four).bind fun q =>
      store q 0x1004#64 3 .four).map fun q => (q.pend 4).toNat) = some 3 :=
  ⟨fun _ _ _ => rfl, by decide +kernel, by decide +kernel⟩

/-- A PLIC may have 15872 contexts, but the window is 16 MB: at the address of the threshold of
context 3584 is the priority of source 0, and so on up; that of the context cannot be read. -/
theorem C123_window_violated (p : Plic) (hs : 0 < p.nS) :
    load p (BitVec.ofNat 64 (Plic.Spec.threshAddr 3584)) .four = some ((p.prio 0).toNat, p) ∧
    ∀ a, ∀ size, load p (a + 0x1000000#64) size = load p a size := by
  constructor
  · have e : p.read 0 = some (p.prio 0, p) := by
      unfold Plic.read
      rw [if_pos (by decide), if_pos (by omega)]
    have ho : offset (BitVec.ofNat 64 (Plic.Spec.threshAddr 3584)) = 0 := by decide
    simp only [load, ho, e, Option.map_some]
  · intro a size
    have ho : offset (a + 0x1000000#64) = offset a := by
      unfold offset
      rw [BitVec.toNat_add, show (0x1000000#64).toNat = 2 ^ 24 from rfl]
      omega
    unfold load
    rw [ho]

end Verif.PlicBus
