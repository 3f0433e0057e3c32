import Verif.ShellInput.Model
import Verif.ShellInput.Spec
/-
C117: the commands of a session.
-/
namespace Verif.ShellInput
open Verif.Shell (Text sp read)
open Spec (Comment Says Runs fileOf Fits)

theorem blank_iff (l : Text) : blank l = true ↔ Comment l := by
  unfold blank Comment
  induction l with
  | nil => simp
  | cons c l ih =>
    by_cases hc : sp c = true
    · rw [List.dropWhile_cons_of_pos hc, ih]
      constructor
      · rintro (h | ⟨p, q, rfl, h⟩)
        · exact Or.inl (fun d hd => by
            rcases List.mem_cons.mp hd with rfl | hd
            · exact hc
            · exact h d hd)
        · exact Or.inr ⟨c :: p, q, rfl, fun d hd => by
            rcases List.mem_cons.mp hd with rfl | hd
            · exact hc
            · exact h d hd⟩
      · rintro (h | ⟨p, q, e, h⟩)
        · exact Or.inl (fun d hd => h d (List.mem_cons_of_mem _ hd))
        · cases p with
          | nil =>
            injection e with e1 _
            rw [e1] at hc
            exact absurd hc (by decide)
          | cons d p =>
            injection e with _ e2
            exact Or.inr ⟨p, q, e2, fun x hx => h x (List.mem_cons_of_mem _ hx)⟩
    · rw [List.dropWhile_cons_of_neg hc]
      simp only [decide_eq_true_eq]
      constructor
      · intro h
        subst h
        exact Or.inr ⟨[], l, rfl, fun x hx => absurd hx List.not_mem_nil⟩
      · rintro (h | ⟨p, q, e, h⟩)
        · exact absurd (h c List.mem_cons_self) hc
        · cases p with
          | nil => injection e
          | cons d p =>
            injection e with e1 _
            exact absurd (h d List.mem_cons_self) (by rw [← e1]; exact hc)

/-! ## Reading a line -/

theorem split_line {l : Text} (h : '\n' ∉ l) (r : Text) :
    (l ++ '\n' :: r).takeWhile (· ≠ '\n') = l ∧ (l ++ '\n' :: r).dropWhile (· ≠ '\n') = '\n' :: r := by
  have h' : ∀ c ∈ l, decide (c ≠ '\n') = true := by
    intro c hc
    rw [decide_eq_true_eq]
    rintro rfl
    exact h hc
  constructor
  · rw [List.takeWhile_append_of_pos h', List.takeWhile_cons_of_neg (by simp), List.append_nil]
  · rw [List.dropWhile_append_of_pos h', List.dropWhile_cons_of_neg (by simp)]

theorem getline_line {l : Text} (h : Fits l) (r : Text) : getline (l ++ '\n' :: r) = .ok l r := by
  obtain ⟨h1, h2⟩ := split_line h.1 r
  unfold getline
  simp only [h1, h2]
  rw [if_neg (by have := h.2; omega)]

theorem takeWhile_all {q : Char → Bool} {l : Text} (h : ∀ c ∈ l, q c = true) : l.takeWhile q = l := by
  have := List.takeWhile_append_of_pos (l₂ := []) h
  simpa using this

theorem dropWhile_all {q : Char → Bool} {l : Text} (h : ∀ c ∈ l, q c = true) : l.dropWhile q = [] := by
  have := List.dropWhile_append_of_pos (l₂ := []) h
  simpa using this

theorem getline_last {l : Text} (h : Fits l) : getline l = .eof := by
  have h' : ∀ c ∈ l, decide (c ≠ '\n') = true := by
    intro c hc
    rw [decide_eq_true_eq]
    rintro rfl
    exact h.1 hc
  have h1 : l.takeWhile (· ≠ '\n') = l := takeWhile_all h'
  have h2 : l.dropWhile (· ≠ '\n') = [] := by
    exact dropWhile_all h'
  unfold getline
  simp only [h1, h2]
  rw [if_neg (by have := h.2; omega)]

/-- The bound on the number of lines does not matter. -/
theorem fetchN_mono : ∀ (n m : Nat) (s : Stream), s.text.length < n → s.text.length < m →
    fetchN n s = fetchN m s := by
  intro n
  induction n with
  | zero => intro m s h; exact absurd h (by omega)
  | succ n ih =>
    intro m s hn hm
    cases m with
    | zero => exact absurd hm (by omega)
    | succ m =>
      unfold fetchN
      by_cases hf : s.failed = true
      · rw [if_pos hf, if_pos hf]
      · rw [if_neg hf, if_neg hf]
        cases hg : getline s.text with
        | eof => rfl
        | long l r => rfl
        | ok l r =>
          dsimp only
          by_cases hb : blank l = true
          · rw [if_pos hb, if_pos hb]
            have : r.length < s.text.length := by
              unfold getline at hg
              dsimp only at hg
              split at hg
              · cases hg
              · split at hg
                · cases hg
                · rename_i e
                  injection hg with _ h2
                  subst h2
                  have := (List.dropWhile_sublist (fun c : Char => decide (c ≠ '\n')) (l := s.text)).length_le
                  rw [e, List.length_cons] at this
                  omega
            exact ih m ⟨r, false⟩ (by dsimp only; omega) (by dsimp only; omega)
          · rw [if_neg hb, if_neg hb]

theorem fetch_line {l : Text} (h : Fits l) (r : Text) :
    fetch ⟨l ++ '\n' :: r, false⟩
      = if blank l then fetch ⟨r, false⟩ else .line l ⟨r, false⟩ := by
  unfold fetch
  rw [fetchN]
  dsimp only
  rw [if_neg (by simp), getline_line h r]
  dsimp only
  by_cases hb : blank l = true
  · rw [if_pos hb, if_pos hb]
    refine fetchN_mono _ _ _ ?_ ?_ <;> simp <;> omega
  · rw [if_neg hb, if_neg hb]

theorem fetch_last {l : Text} (h : Fits l) : fetch ⟨l, false⟩ = .ended := by
  unfold fetch
  rw [fetchN]
  dsimp only
  rw [if_neg (by simp), getline_last h]

theorem fileOf_cons (l : Text) (ls : List Text) : fileOf (l :: ls) = l ++ '\n' :: fileOf ls := by
  simp [fileOf]

theorem fits_nil : Fits [] := ⟨List.not_mem_nil, by simp⟩

/-! ## Steps -/

variable {opens : Text → Option Text}

theorem Steps.trans {s s' s'' : State} {t u : List Text} (h : Steps opens s t s') (k : Steps opens s' u s'') :
    Steps opens s (t ++ u) s'' := by
  induction h with
  | refl => exact k
  | quiet e _ ih => exact .quiet e (ih k)
  | did e _ ih => exact .did e (ih k)

/-- A comment in a file makes no difference. -/
theorem step_skip {l : Text} (hl : Fits l) (hc : Comment l) (ls : List Text) (fs : List Stream)
    (sv : List Text) (p : Text) (i : List Text) :
    step opens ⟨⟨fileOf (l :: ls), false⟩ :: fs, sv, p, i⟩ = step opens ⟨⟨fileOf ls, false⟩ :: fs, sv, p, i⟩ := by
  unfold step
  dsimp only
  rw [fileOf_cons, fetch_line hl, if_pos ((blank_iff l).mpr hc)]

theorem step_file {l : Text} (hl : Fits l) (hc : ¬ Comment l) (ls : List Text) (fs : List Stream)
    (sv : List Text) (p : Text) (i : List Text) :
    step opens ⟨⟨fileOf (l :: ls), false⟩ :: fs, sv, p, i⟩
      = carry opens ⟨⟨fileOf ls, false⟩ :: fs, sv, l, i⟩ l := by
  unfold step
  dsimp only
  rw [fileOf_cons, fetch_line hl, if_neg (fun h => hc ((blank_iff l).mp h))]

theorem step_end (fs : List Stream) (x : Text) (sv : List Text) (p : Text) (i : List Text) :
    step opens ⟨⟨fileOf [], false⟩ :: fs, x :: sv, p, i⟩ = .quiet ⟨fs, sv, x, i⟩ := by
  unfold step
  dsimp only
  rw [show fileOf [] = [] from rfl, fetch_last fits_nil]
  rfl

/-- Turns followed by turns that begin with the same result. -/
theorem Steps.congr {s s' u : State} {t : List Text} (e : step opens s = step opens s') (hne : s' ≠ u ∨ t ≠ [])
    (h : Steps opens s' t u) : Steps opens s t u := by
  cases h with
  | refl => rcases hne with h | h <;> exact absurd rfl h
  | quiet e' k => exact .quiet (e.trans e') k
  | did e' k => exact .did (e.trans e') k

theorem step_typed {p l c : Text} (hl : l.length ≤ 511) (hs : Says false p l c) (ls : List Text)  :
    step opens ⟨[], [], p, l :: ls⟩ = carry opens ⟨[], [], c, ls⟩ c := by
  unfold step
  dsimp only
  rw [List.take_of_length_le hl]
  rcases hs with ⟨rfl, rfl⟩ | ⟨h, rfl⟩
  · rw [if_pos rfl]
  · rw [if_neg h]

theorem carry_quit {s : State} {c : Text} (h : read c = .quit) : carry opens s c = .stop := by
  unfold carry; rw [h]

theorem carry_exec {s : State} {c f text : Text} (h : read c = .exec f) (ho : opens f = some text) :
    carry opens s c = .quiet { s with files := ⟨text, false⟩ :: s.files, saved := s.prev :: s.saved } := by
  unfold carry; rw [h]; dsimp only; rw [ho]

theorem carry_other {s : State} {c : Text} (h : read c ≠ .quit) (ho : ∀ f, read c = .exec f → opens f = none) :
    carry opens s c = .did c s := by
  unfold carry
  split
  · rename_i e; exact absurd e h
  · rename_i f e; rw [ho f e]
  · rfl

/-- What a state with the lines to come looks like. -/
def before (file : Bool) (p : Text) (ls : List Text) (fs : List Stream) (sv : List Text) (x : Text)
    (i : List Text) : State :=
  if file then ⟨⟨fileOf ls, false⟩ :: fs, x :: sv, p, i⟩ else ⟨[], [], p, ls⟩

/-- What the lines lead to. -/
def Leads (opens : Text → Option Text) (file : Bool) (s : State) (fs : List Stream) (sv : List Text) (x : Text)
    (i : List Text) (t : List Text) (q : Bool) : Prop :=
  if q then ∃ s', Steps opens s t s' ∧ step opens s' = .stop
  else if file then Steps opens s t ⟨fs, sv, x, i⟩
  else ∃ p', Steps opens s t ⟨[], [], p', []⟩

theorem leads_did {file : Bool} {s s' : State} {fs sv x i t q} {c : Text} (e : step opens s = .did c s')
    (h : Leads opens file s' fs sv x i t q) : Leads opens file s fs sv x i (c :: t) q := by
  unfold Leads at h ⊢
  split
  · rename_i hq
    rw [if_pos hq] at h
    obtain ⟨s'', h1, h2⟩ := h
    exact ⟨s'', .did e h1, h2⟩
  · rename_i hq
    rw [if_neg hq] at h
    split
    · rename_i hf
      rw [if_pos hf] at h
      exact .did e h
    · rename_i hf
      rw [if_neg hf] at h
      obtain ⟨p', h⟩ := h
      exact ⟨p', .did e h⟩

theorem leads_steps {file : Bool} {s s' : State} {fs sv x i t u q} (k : Steps opens s t s')
    (h : Leads opens file s' fs sv x i u q) : Leads opens file s fs sv x i (t ++ u) q := by
  unfold Leads at h ⊢
  split
  · rename_i hq
    rw [if_pos hq] at h
    obtain ⟨s'', h1, h2⟩ := h
    exact ⟨s'', k.trans h1, h2⟩
  · rename_i hq
    rw [if_neg hq] at h
    split
    · rename_i hf
      rw [if_pos hf] at h
      exact k.trans h
    · rename_i hf
      rw [if_neg hf] at h
      obtain ⟨p', h⟩ := h
      exact ⟨p', k.trans h⟩

/-- A turn that takes a line. -/
theorem step_says {file : Bool} {p l c : Text} (hl : Fits l) (hs : Says file p l c) (ls : List Text)
    (fs : List Stream) (sv : List Text) (x : Text) (i : List Text) :
    step opens (before file p (l :: ls) fs sv x i) = carry opens (before file c ls fs sv x i) c := by
  cases file with
  | true =>
    obtain ⟨h1, rfl⟩ := hs
    exact step_file hl h1 ls fs (x :: sv) p i
  | false => exact step_typed hl.2 hs ls

theorem before_prev {file : Bool} {c : Text} {ls : List Text} {fs sv x i} :
    (before file c ls fs sv x i).prev = c := by
  cases file <;> rfl

theorem runs_leads {dir : Text → Option (List Text)} (hd : ∀ f fl, dir f = some fl → ∀ l ∈ fl, Fits l)
    {file p ls t q} (h : Runs dir file p ls t q) (hf : ∀ l ∈ ls, Fits l) :
    ∀ fs sv x i, Leads (fun f => (dir f).map fileOf) file (before file p ls fs sv x i) fs sv x i t q := by
  induction h with
  | @nil file p =>
    intro fs sv x i
    cases file with
    | true => exact .quiet (step_end fs x sv p i) .refl
    | false => exact ⟨p, .refl⟩
  | @skip p l ls t q hc _ ih =>
    intro fs sv x i
    have ih := ih (fun y hy => hf y (List.mem_cons_of_mem _ hy)) fs sv x i
    have e := step_skip (opens := fun f => (dir f).map fileOf) (hf l List.mem_cons_self) hc ls fs (x :: sv) p i
    unfold Leads before at ih ⊢
    simp only [if_true] at ih ⊢
    cases q with
    | true =>
      rw [if_pos rfl] at ih ⊢
      obtain ⟨s', h1, h2⟩ := ih
      cases h1 with
      | refl => exact ⟨_, .refl, e.trans h2⟩
      | quiet e' k => exact ⟨s', .quiet (e.trans e') k, h2⟩
      | did e' k => exact ⟨s', .did (e.trans e') k, h2⟩
    | false =>
      rw [if_neg (by simp)] at ih ⊢
      refine Steps.congr e (Or.inl ?_) ih
      intro hE
      injection hE with hE
      exact absurd (congrArg List.length hE) (by simp)
  | @quit file p l c ls hs hq =>
    intro fs sv x i
    refine ⟨_, .refl, ?_⟩
    rw [step_says (hf l List.mem_cons_self) hs, carry_quit hq]
  | @execQuit file p l c ls f fl t hs he hdir _ ih =>
    intro fs sv x i
    have e := step_says (opens := fun f => (dir f).map fileOf) (hf l List.mem_cons_self) hs ls fs sv x i
    rw [carry_exec he (text := fileOf fl) (by rw [hdir]; rfl)] at e
    obtain ⟨s', h1, h2⟩ := ih (hd f fl hdir) (before file c ls fs sv x i).files
      (before file c ls fs sv x i).saved c (before file c ls fs sv x i).input
    refine ⟨s', .quiet e ?_, h2⟩
    rw [before_prev]
    cases file <;> exact h1
  | @exec file p l c ls f fl t u q hs he hdir _ _ ih1 ih2 =>
    intro fs sv x i
    have e := step_says (opens := fun f => (dir f).map fileOf) (hf l List.mem_cons_self) hs ls fs sv x i
    rw [carry_exec he (text := fileOf fl) (by rw [hdir]; rfl)] at e
    have h1 := ih1 (hd f fl hdir) (before file c ls fs sv x i).files
      (before file c ls fs sv x i).saved c (before file c ls fs sv x i).input
    refine leads_steps (s' := before file c ls fs sv x i) (.quiet e ?_)
      (ih2 (fun y hy => hf y (List.mem_cons_of_mem _ hy)) fs sv x i)
    rw [before_prev]
    cases file <;> exact h1
  | @other file p l c ls u q hs hq hn _ ih =>
    intro fs sv x i
    have e := step_says (opens := fun f => (dir f).map fileOf) (hf l List.mem_cons_self) hs ls fs sv x i
    rw [carry_other hq (fun f hf => by rw [hn f hf]; rfl)] at e
    exact leads_did e (ih (fun y hy => hf y (List.mem_cons_of_mem _ hy)) fs sv x i)

/-- C117: for all files whose lines end with a newline and have at most 511 characters, and every session
typed with such lines, the shell carries out exactly the commands of the session, in order, files in place
of the `exec` lines that name them, and returns if the session says `quit`.

Missing: files whose last line has no newline, longer lines, and what happens after the last line typed
without `quit`; see the theorems below. -/
theorem C117_session_partial (dir : Text → Option (List Text))
    (hd : ∀ f fl, dir f = some fl → ∀ l ∈ fl, Fits l) (ls t : List Text) (hl : ∀ l ∈ ls, Fits l) (q : Bool)
    (h : Runs dir false [] ls t q) :
    ∃ s, Steps (fun f => (dir f).map fileOf) { input := ls } t s
      ∧ (q = true → step (fun f => (dir f).map fileOf) s = .stop)
      ∧ (q = false → s.files = [] ∧ s.input = []) := by
  have := runs_leads hd h hl [] [] [] []
  unfold Leads before at this
  simp only [Bool.false_eq_true, if_false] at this
  cases q with
  | true =>
    obtain ⟨s, h1, h2⟩ := this
    exact ⟨s, h1, fun _ => h2, fun h => by cases h⟩
  | false =>
    obtain ⟨p, h1⟩ := this
    exact ⟨_, h1, fun h => (by cases h), fun _ => ⟨rfl, rfl⟩⟩

/-- The last line of a file is passed over if no newline follows it, whatever it is. -/
theorem C117_last_line_violated (l : Text) (h : Fits l) (fs : List Stream) (x : Text) (sv : List Text)
    (p : Text) (i : List Text) :
    step opens ⟨⟨l, false⟩ :: fs, x :: sv, p, i⟩ = .quiet ⟨fs, sv, x, i⟩ := by
  unfold step
  dsimp only
  rw [fetch_last h]
  rfl

/-- A line of 512 characters or more in a file: its first 511 characters are taken as a command; then the
shell never goes on. -/
theorem C117_long_line_violated (text : Text) (h : ∀ c ∈ text.take 512, c ≠ '\n') (hl : 512 ≤ text.length)
    (hc : ¬ Comment (text.take 511)) (hq : read (text.take 511) ≠ .quit)
    (he : ∀ f, read (text.take 511) = .exec f → opens f = none)
    (fs : List Stream) (sv : List Text) (p : Text) (i : List Text) :
    ∃ s, step opens ⟨⟨text, false⟩ :: fs, sv, p, i⟩ = .did (text.take 511) s ∧ step opens s = .hang := by
  have hlen : 511 < (text.takeWhile (· ≠ '\n')).length := by
    conv => rhs; rw [← List.take_append_drop 512 text]
    rw [List.takeWhile_append_of_pos (fun c hc => by rw [decide_eq_true_eq]; exact h c hc),
      List.length_append, List.length_take]
    omega
  have hf : fetch ⟨text, false⟩ = .line (text.take 511) ⟨text.drop 511, true⟩ := by
    unfold fetch
    rw [fetchN]
    dsimp only
    have hg : getline text = .long (text.take 511) (text.drop 511) := by
      unfold getline
      dsimp only
      rw [if_pos hlen]
    rw [if_neg (by simp), hg]
    dsimp only
    rw [if_neg (fun hb => hc ((blank_iff _).mp hb))]
  refine ⟨⟨⟨text.drop 511, true⟩ :: fs, sv, text.take 511, i⟩, ?_, ?_⟩
  · unfold step
    dsimp only
    rw [hf]
    exact carry_other hq he
  · unfold step
    dsimp only
    have : fetch ⟨text.drop 511, true⟩ = .hang := by
      unfold fetch
      rw [fetchN]
      rfl
    rw [this]

/-- After the end of the input the last command is carried out again and again. -/
theorem C117_end_of_input_violated (c : Text) (hq : read c ≠ .quit) (he : ∀ f, read c = .exec f → opens f = none)
    (n : Nat) : Steps opens ⟨[], [], c, []⟩ (List.replicate n c) ⟨[], [], c, []⟩ := by
  induction n with
  | zero => exact .refl
  | succ n ih =>
    rw [List.replicate_succ]
    exact .did (carry_other hq he) ih

/-! ## Cases that meet the hypotheses -/

def sampleDir (f : Text) : Option (List Text) :=
  if f = "a".toList then some ["# two commands".toList, "step".toList, "".toList, "exec b".toList, "halt".toList]
  else if f = "b".toList then some ["  wait".toList]
  else none

def typed : List Text := ["run".toList, [], "exec a".toList, "exec c".toList, "quit".toList, "step".toList]

theorem says_typed {p l : Text} (h : l ≠ []) : Says false p l l := Or.inr ⟨h, rfl⟩

theorem says_file {p l : Text} (h : blank l = false) : Says true p l l :=
  ⟨(fun hc => by rw [(blank_iff l).mpr hc] at h; cases h), rfl⟩

theorem other_of {c : Text} {k : Shell.Cmd} (h : read c = k) (hq : k ≠ .quit) (hn : ∀ f, k ≠ .exec f) :
    read c ≠ .quit ∧ ∀ f, read c = .exec f → sampleDir f = none :=
  ⟨by rw [h]; exact hq, fun f hf => absurd (h.symm.trans hf) (hn f)⟩

theorem run_other : read "run".toList ≠ .quit ∧ ∀ f, read "run".toList = .exec f → sampleDir f = none :=
  other_of (k := .run) (by decide +kernel) (by simp) (by simp)
theorem step_other : read "step".toList ≠ .quit ∧ ∀ f, read "step".toList = .exec f → sampleDir f = none :=
  other_of (k := .step 1) (by decide +kernel) (by simp) (by simp)
theorem wait_other : read "  wait".toList ≠ .quit ∧ ∀ f, read "  wait".toList = .exec f → sampleDir f = none :=
  other_of (k := .wait) (by decide +kernel) (by simp) (by simp)
theorem halt_other : read "halt".toList ≠ .quit ∧ ∀ f, read "halt".toList = .exec f → sampleDir f = none :=
  other_of (k := .halt) (by decide +kernel) (by simp) (by simp)

example : Runs sampleDir false [] typed
    (["run".toList, "run".toList, "step".toList, "  wait".toList, "halt".toList, "exec c".toList]) true := by
  refine .other (says_typed (by decide)) run_other.1 run_other.2 ?_
  refine .other (Or.inl ⟨rfl, rfl⟩) run_other.1 run_other.2 ?_
  refine .exec (f := "a".toList) (t := ["step".toList, "  wait".toList, "halt".toList]) (says_typed (by decide))
    (by decide +kernel) rfl ?_ ?_
  · refine .skip ((blank_iff _).mp (by decide)) ?_
    refine .other (says_file (by decide)) step_other.1 step_other.2 ?_
    refine .skip ((blank_iff _).mp (by decide)) ?_
    refine .exec (f := "b".toList) (t := ["  wait".toList]) (says_file (by decide)) (by decide +kernel) rfl ?_ ?_
    · exact .other (says_file (by decide)) wait_other.1 wait_other.2 .nil
    · exact .other (says_file (by decide)) halt_other.1 halt_other.2 .nil
  · refine .other (says_typed (by decide)) (by decide +kernel) ?_ ?_
    · intro f hf
      have : read "exec c".toList = .exec "c".toList := by decide +kernel
      rw [this] at hf
      injection hf with hf
      subst hf
      decide
    · exact .quit (says_typed (by decide)) (by decide +kernel)

-- A file of one long line.
def long : Text := List.replicate 600 'x'

example : (∀ c ∈ long.take 512, c ≠ '\n') ∧ 512 ≤ long.length ∧ ¬ Comment (long.take 511) := by
  refine ⟨?_, by decide +kernel, fun h => ?_⟩
  · intro c hc
    have := List.eq_of_mem_replicate (List.mem_of_mem_take hc)
    rw [this]
    decide
  · have := (blank_iff _).mpr h
    exact absurd this (by decide +kernel)

example : step (fun _ => none) ⟨[⟨"step".toList, false⟩], ["exec a".toList], [], []⟩
    = .quiet ⟨[], [], "exec a".toList, []⟩ := by decide +kernel

end Verif.ShellInput
