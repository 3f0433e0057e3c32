import Verif.Shell.Vreg
/-
Proof infrastructure for the command shell: the whole list of rules, word by word.
-/
namespace Verif.Shell
open Spec (tokens tokensFrom)

theorem firstRule_eq : ∀ (rs : List Rule) (s : Text),
    firstRule rs s = (rs.findSome? fun r => (full r.re s).bind r.make).getD .unrecognized := by
  intro rs s
  induction rs with
  | nil => rfl
  | cons r rs ih =>
    rw [firstRule, List.findSome?_cons]
    cases (full r.re s).bind r.make with
    | some c => rfl
    | none => exact ih

/-- The first that is there. -/
def firstOf : List (Option Cmd) → Cmd
  | [] => .unrecognized
  | some c :: _ => c
  | none :: l => firstOf l

theorem firstRule_firstOf (rs : List Rule) (s : Text) :
    firstRule rs s = firstOf (rs.map fun r => (full r.re s).bind r.make) := by
  induction rs with
  | nil => rfl
  | cons r rs ih =>
    rw [firstRule, List.map_cons]
    cases h : (full r.re s).bind r.make with
    | some c => rfl
    | none => exact ih

/-- The rules word by word; `vg`, `vs`, `ms` and `ex` stand for the four that need more. -/
def byWords (ts : List Text) (vg vs ms ex : Option Cmd) : List (Option Cmd) :=
  [ (tm [k "quit"] ts).bind fun _ => some .quit,
    (tm [k "core", num] ts).bind fun c => (cradix (cap c 0)).map .core,
    (tm [.alt (k "run") (k "c")] ts).bind fun _ => some .run,
    (tm [k "run", k "free"] ts).bind fun _ => some .runFree,
    (tm [k "wait"] ts).bind fun _ => some .wait,
    (tm [k "step"] ts).bind fun _ => some (.step 1),
    (tm [k "step", num] ts).bind fun c => (cradix (cap c 0)).map .step,
    (tm [k "halt"] ts).bind fun _ => some .halt,
    (tmTail (isFmt "foduxX") [k "reg", k "get", dotted] ts).bind fun x => some (.regGet (cap x.1 0)),
    (tm [k "reg", k "set", dname, word] ts).bind fun c => some (.regSet (cap c 0) (cap c 1)),
    vg, vs,
    (tmTail isMemFmt [k "mem", k "get", word] ts).bind fun x => some (.memGet (cap x.1 0) (x.2.getD [])),
    ms,
    (tm [k "break", k "set", dname] ts).bind fun c => some (.breakSet (cap c 0) false),
    ((tm [k "break", hash] ts).orElse fun _ => tm [k "break", k "set", hash] ts).map fun c =>
      .breakSetN (cap c 0),
    (tm [k "break", k "clear", hash] ts).bind fun c => some (.breakClearN (cap c 0)),
    (tm [k "break", k "clear-all"] ts).bind fun _ => some .breakClearAll,
    (tm [k "break", k "clear", dname] ts).bind fun c => some (.breakClear (cap c 0)),
    (tm [k "break"] ts).bind fun _ => some .breakList,
    (tm [k "help"] ts).bind fun _ => some .help,
    (tmTail (isFmt "foduxX") [k "reg", dotted] ts).bind fun x => some (.regGet (cap x.1 0)),
    (tm [k "break", dname] ts).bind fun c => some (.breakSet (cap c 0) true),
    (tmTail isRw [k "watch", k "set", word, word] ts).bind fun x =>
      some (.watchSet (cap x.1 0) (cap x.1 1) (access1 (x.2.getD []))),
    ((tm [k "watch", hash] ts).orElse fun _ => tm [k "watch", k "set", hash] ts).map fun c =>
      .watchSetN (cap c 0),
    (tm [k "watch", k "clear", hash] ts).bind fun c => some (.watchClearN (cap c 0)),
    (tm [k "watch", k "clear-all"] ts).bind fun _ => some .watchClearAll,
    (tmTail isRw [k "watch", k "clear", word] ts).bind fun x =>
      some (.watchClear (cap x.1 0) (access2 (x.2.getD []))),
    (tmTail isRw [k "watch", word, word] ts).bind fun x =>
      some (.watchSet (cap x.1 0) (cap x.1 1) (access2 (x.2.getD []))),
    (tm [k "watch"] ts).bind fun _ => some .watchList,
    (tmTail isMemFmt [k "mem", word] ts).bind fun x => some (.memGet (cap x.1 0) (x.2.getD [])),
    (tm [k "action"] ts).bind fun _ => some .actionList,
    (tm [k "action", k "enable", .seq (k "*") num] ts).bind fun c => some (.actionEnable (cap c 0)),
    (tm [k "action", k "disable", .seq (k "*") num] ts).bind fun c => some (.actionDisable (cap c 0)),
    (tm [k "action", k "clear", .seq (k "*") num] ts).bind fun c => some (.actionClear (cap c 0)),
    (tm [k "action", k "clear-all"] ts).bind fun _ => some .actionClearAll,
    (tm [k "branch-trace"] ts).bind fun _ => some .branchTrace,
    ex ]

theorem good_nil : ∀ r ∈ ([] : List Re), Good r := fun _ h => absurd h List.not_mem_nil

theorem good_cons {r : Re} {rs : List Re} (h : Good r) (hs : ∀ x ∈ rs, Good x) : ∀ x ∈ r :: rs, Good x := by
  intro x hx
  rcases List.mem_cons.mp hx with rfl | hx
  · exact h
  · exact hs x hx

theorem good_kcons (s : String) {rs : List Re} (h : s.toList ≠ [] ∧ s.toList.all (fun c => !sp c) = true)
    (hs : ∀ x ∈ rs, Good x) : ∀ x ∈ k s :: rs, Good x := good_cons (good_k s h) hs

theorem good_star : Good (.seq (k "*") num) := good_marked "*" '*' rfl (by decide)

/-- What the shell does with the access, apart from the blanks before it. -/
theorem strip_w (w : Text) (hw : Blank w) : strip (w ++ "w".toList) ≠ "r".toList ∧
    strip (w ++ "w".toList) ≠ "rw".toList := by
  have key : ∀ w : Text, Blank w → ∀ x ∈ strip (w ++ "w".toList), sp x = true ∨ x = 'w' := by
    intro w hw x hx
    have := (List.dropWhile_sublist _).subset hx
    rcases List.mem_append.mp this with h | h
    · exact .inl (List.all_eq_true.mp hw x h)
    · exact .inr (by simpa using h)
  constructor <;> intro h
  · have := key w hw 'r' (by rw [h]; decide)
    exact absurd this (by decide)
  · have := key w hw 'r' (by rw [h]; decide)
    exact absurd this (by decide)

theorem strip_spaces : ∀ (w t : Text), (∀ x ∈ w, x = ' ') → strip (w ++ t) = strip t := by
  intro w t h
  induction w with
  | nil => rfl
  | cons x w ih =>
    have hx := h x List.mem_cons_self
    subst hx
    rw [List.cons_append, strip, List.dropWhile_cons_of_pos (by decide)]
    exact ih (fun y hy => h y (List.mem_cons_of_mem _ hy))

/-- The line has no tab, or does not end in `r` or `rw`. -/
def Plain (s : Text) : Prop :=
  ¬ (Spec.HasTab s ∧ ∃ ts t, tokens s = "watch".toList :: ts ++ [t] ∧ (t = "r".toList ∨ t = "rw".toList))

theorem access_plain {s : Text} (hp : Plain s) {ts : List Text} {t w : Text}
    (h : tokens s = "watch".toList :: ts ++ [t]) (hq : isRw t = true) (hw : Blank w) (hm : ∀ x ∈ w, x ∈ s) :
    access1 (w ++ t) = access1 t ∧ access2 (w ++ t) = access2 t := by
  by_cases ht : t = "r".toList ∨ t = "rw".toList
  · have hs : ∀ x ∈ w, x = ' ' := by
      intro x hx
      by_cases hxs : x = ' '
      · exact hxs
      · exact absurd ⟨⟨x, hm x hx, by rw [sp_eq]; exact List.all_eq_true.mp hw x hx, hxs⟩, ts, t, h, ht⟩ hp
    have := strip_spaces w t hs
    exact ⟨by unfold access1; rw [this], by unfold access2; rw [this]⟩
  · have : t = "w".toList := by
      simp only [isRw, Bool.or_eq_true, decide_eq_true_eq] at hq
      rcases hq with (h1 | h1) | h1
      · exact absurd (.inl h1) ht
      · exact h1
      · exact absurd (.inr h1) ht
    subst this
    obtain ⟨h1, h2⟩ := strip_w w hw
    constructor
    · unfold access1; rw [if_neg h1, if_neg h2]; rfl
    · unfold access2; rw [if_neg h1, if_neg h2]; rfl

theorem tmTail_watch {q : Text → Bool} {rs : List Re} {ts : List Text} {c : Caps} {t : Text}
    (h : tmTail q (k "watch" :: rs) ts = some (c, some t)) :
    q t = true ∧ ∃ us, ts = "watch".toList :: us ++ [t] := by
  rcases (tmTail_iff q _ ts c (some t)).mp h with ⟨h, _⟩ | ⟨us, t', h1, rfl, hq, h2⟩
  · cases h
  · cases h1
    refine ⟨hq, ?_⟩
    cases us with
    | nil => cases h2
    | cons u us =>
      simp only [tm, full_k] at h2
      split at h2
      · rename_i c' hc
        split at hc
        · rename_i hu
          subst hu
          exact ⟨us, rfl⟩
        · cases hc
      · cases h2

theorem cap_append {c d : Caps} {i : Nat} (h : i < c.length) : cap (c ++ d) i = cap c i := by
  unfold cap
  rw [List.getElem?_append_left h]

theorem cap_last {c : Caps} {x : Option Text} {i : Nat} (h : i = c.length) : cap (c ++ [x]) i = x.getD [] := by
  subst h
  unfold cap
  rw [List.getElem?_append_right (Nat.le_refl _), Nat.sub_self]; rfl

theorem lang_length : ∀ (r : Re) (s : Text) (c : Caps), Lang r s c → c.length = r.nones.length := by
  intro r
  induction r with
  | lit t => rintro s c ⟨_, rfl⟩; rfl
  | one p => rintro s c ⟨_, rfl⟩; rfl
  | star p => rintro s c ⟨_, rfl⟩; rfl
  | plus p => rintro s c ⟨_, _, rfl⟩; rfl
  | plusLast p => rintro s c ⟨_, _, rfl⟩; rfl
  | seq a b iha ihb =>
    rintro s c ⟨w1, w2, c1, c2, rfl, rfl, h1, h2⟩
    rw [List.length_append, iha w1 c1 h1, ihb w2 c2 h2, Re.nones, List.length_append]
  | alt a b iha ihb =>
    rintro s c (⟨c1, rfl, h1⟩ | ⟨c1, rfl, h1⟩)
    · rw [List.length_append, iha s c1 h1, Re.nones, List.length_append]
    · rw [List.length_append, ihb s c1 h1, Re.nones, List.length_append]
  | opt a ih =>
    rintro s c (h1 | ⟨_, rfl⟩)
    · exact ih s c h1
    · rfl
  | grp a ih =>
    rintro s c ⟨c1, rfl, h1⟩
    rw [List.length_cons, ih s c1 h1]; rfl

theorem tm_length : ∀ (rs : List Re) (ts : List Text) (c : Caps), tm rs ts = some c →
    c.length = (rs.map fun r => r.nones.length).sum := by
  intro rs
  induction rs with
  | nil =>
    intro ts c h
    cases ts with
    | nil => cases h; rfl
    | cons t ts => cases h
  | cons r rs ih =>
    intro ts c h
    cases ts with
    | nil => cases h
    | cons t ts =>
      rw [tm] at h
      split at h
      · rename_i c1 h1
        rw [Option.map_eq_some_iff] at h
        obtain ⟨c2, h2, rfl⟩ := h
        rw [List.length_append, lang_length r t c1 (full_some h1), ih ts c2 h2]; rfl
      · cases h

theorem tmTail_length {q : Text → Bool} {rs : List Re} {ts : List Text} {c : Caps} {o : Option Text}
    (h : tmTail q rs ts = some (c, o)) : c.length = (rs.map fun r => r.nones.length).sum := by
  rcases (tmTail_iff q rs ts c o).mp h with ⟨_, h⟩ | ⟨us, t, _, _, _, h⟩ <;> exact tm_length _ _ _ h

theorem reg_tail (s : Text) {rs : List Re} (h0 : rs ≠ []) (hg : ∀ r ∈ rs, Good r)
    (hl : (rs.map fun r => r.nones.length).sum = 2) :
    (full (.seq ws (words rs fmtTail)) s).bind (fun c => some (Cmd.regGet (cap c 0)))
      = (tmTail (isFmt "foduxX") rs (tokens s)).bind (fun x => some (Cmd.regGet (cap x.1 0))) := by
  refine full_tail tail_fmt h0 hg s _ (fun c _ => some (.regGet (cap c 0))) ?_ ?_
  · intro c h
    rw [cap_append (by rw [tmTail_length h, hl]; decide)]
  · intro c t w h _ _ _
    rw [cap_append (by rw [tmTail_length h, hl]; decide)]

theorem mem_tail (s : Text) {rs : List Re} (h0 : rs ≠ []) (hg : ∀ r ∈ rs, Good r)
    (hl : (rs.map fun r => r.nones.length).sum = 1) :
    (full (.seq ws (words rs memTail)) s).bind (fun c => some (Cmd.memGet (cap c 0) (cap c 1)))
      = (tmTail isMemFmt rs (tokens s)).bind (fun x => some (Cmd.memGet (cap x.1 0) (x.2.getD []))) := by
  refine full_tail tail_mem h0 hg s _ (fun c o => some (.memGet (cap c 0) (o.getD []))) ?_ ?_
  · intro c h
    rw [cap_append (by rw [tmTail_length h, hl]; decide), cap_last (by rw [tmTail_length h, hl])]
  · intro c t w h _ _ he
    rw [cap_append (by rw [tmTail_length h, hl]; decide), cap_last (by rw [tmTail_length h, hl]), he rfl]
    rfl

theorem watch_tail1 (s : Text) (hp : Plain s) {rs : List Re} (hg : ∀ r ∈ k "watch" :: rs, Good r)
    (hl : ((k "watch" :: rs).map fun r => r.nones.length).sum = 2) :
    (full (.seq ws (words (k "watch" :: rs) rwTail)) s).bind
        (fun c => some (Cmd.watchSet (cap c 0) (cap c 1) (access1 (cap c 2))))
      = (tmTail isRw (k "watch" :: rs) (tokens s)).bind
        (fun x => some (Cmd.watchSet (cap x.1 0) (cap x.1 1) (access1 (x.2.getD [])))) := by
  refine full_tail tail_rw (by simp) hg s _
    (fun c o => some (.watchSet (cap c 0) (cap c 1) (access1 (o.getD [])))) ?_ ?_
  · intro c h
    rw [cap_append (by rw [tmTail_length h, hl]; decide), cap_append (by rw [tmTail_length h, hl]; decide),
      cap_last (by rw [tmTail_length h, hl])]
  · intro c t w h hw hm _
    obtain ⟨hq, us, hts⟩ := tmTail_watch h
    rw [cap_append (by rw [tmTail_length h, hl]; decide), cap_append (by rw [tmTail_length h, hl]; decide),
      cap_last (by rw [tmTail_length h, hl])]
    simp only [Option.getD_some]
    rw [(access_plain hp hts hq hw hm).1]

theorem watch_tail2 (s : Text) (hp : Plain s) {rs : List Re} (hg : ∀ r ∈ k "watch" :: rs, Good r)
    (hl : ((k "watch" :: rs).map fun r => r.nones.length).sum = 2) :
    (full (.seq ws (words (k "watch" :: rs) rwTail)) s).bind
        (fun c => some (Cmd.watchSet (cap c 0) (cap c 1) (access2 (cap c 2))))
      = (tmTail isRw (k "watch" :: rs) (tokens s)).bind
        (fun x => some (Cmd.watchSet (cap x.1 0) (cap x.1 1) (access2 (x.2.getD [])))) := by
  refine full_tail tail_rw (by simp) hg s _
    (fun c o => some (.watchSet (cap c 0) (cap c 1) (access2 (o.getD [])))) ?_ ?_
  · intro c h
    rw [cap_append (by rw [tmTail_length h, hl]; decide), cap_append (by rw [tmTail_length h, hl]; decide),
      cap_last (by rw [tmTail_length h, hl])]
  · intro c t w h hw hm _
    obtain ⟨hq, us, hts⟩ := tmTail_watch h
    rw [cap_append (by rw [tmTail_length h, hl]; decide), cap_append (by rw [tmTail_length h, hl]; decide),
      cap_last (by rw [tmTail_length h, hl])]
    simp only [Option.getD_some]
    rw [(access_plain hp hts hq hw hm).2]

theorem watch_tail3 (s : Text) (hp : Plain s) {rs : List Re} (hg : ∀ r ∈ k "watch" :: rs, Good r)
    (hl : ((k "watch" :: rs).map fun r => r.nones.length).sum = 1) :
    (full (.seq ws (words (k "watch" :: rs) rwTail)) s).bind
        (fun c => some (Cmd.watchClear (cap c 0) (access2 (cap c 1))))
      = (tmTail isRw (k "watch" :: rs) (tokens s)).bind
        (fun x => some (Cmd.watchClear (cap x.1 0) (access2 (x.2.getD [])))) := by
  refine full_tail tail_rw (by simp) hg s _
    (fun c o => some (.watchClear (cap c 0) (access2 (o.getD [])))) ?_ ?_
  · intro c h
    rw [cap_append (by rw [tmTail_length h, hl]; decide), cap_last (by rw [tmTail_length h, hl])]
  · intro c t w h hw hm _
    obtain ⟨hq, us, hts⟩ := tmTail_watch h
    rw [cap_append (by rw [tmTail_length h, hl]; decide), cap_last (by rw [tmTail_length h, hl])]
    simp only [Option.getD_some]
    rw [(access_plain hp hts hq hw hm).2]

/-- The four rules that are not read word by word. -/
def vgRule (s : Text) : Option Cmd := (full rdVregRe s).bind fun c => some (.vregGet (cap c 0) (cap c 1)
        (if (cap c 2).isEmpty then "x".toList else cap c 2)
        (if (cap c 3).isEmpty then "32".toList else cap c 3))
def vsRule (s : Text) : Option Cmd :=
  (full wrVregRe s).bind fun c => some (.vregSet (cap c 0) (cap c 1) (cap c 2) (cap c 3) (cap c 4))
def msRule (s : Text) : Option Cmd :=
  (full writeMemRe s).bind fun c => some (.memSet (cap c 0) (cap c 1) (cap c 2))
def exRule (s : Text) : Option Cmd := (full execRe s).bind fun c => some (.exec (cap c 0))

theorem read_eq (s : Text) (hp : Plain s) :
    read s = firstOf (byWords (tokens s) (vgRule s) (vsRule s) (msRule s) (exRule s)) := by
  have L : ∀ rs, rs ≠ [] → (∀ r ∈ rs, Good r) → full (line rs) s = tm rs (tokens s) :=
    fun rs h0 hg => full_line h0 hg s
  rw [read, firstRule_firstOf]
  refine congrArg firstOf ?_
  unfold rules byWords
  simp only [List.map_cons, List.map_nil]
  have e1 : full quitRe s = _ := L [k "quit"] (by simp) (good_kcons _ (by decide) good_nil)
  have e2 : full coreRe s = _ := L [k "core", num] (by simp) (good_kcons _ (by decide) (good_cons good_num good_nil))
  have e3 : full runRe s = _ := L [.alt (k "run") (k "c")] (by simp) (good_cons good_run good_nil)
  have e4 : full runFreeRe s = _ := L [k "run", k "free"] (by simp)
    (good_kcons _ (by decide) (good_kcons _ (by decide) good_nil))
  have e5 : full waitRe s = _ := L [k "wait"] (by simp) (good_kcons _ (by decide) good_nil)
  have e6 : full step1Re s = _ := L [k "step"] (by simp) (good_kcons _ (by decide) good_nil)
  have e7 : full stepNRe s = _ := L [k "step", num] (by simp) (good_kcons _ (by decide) (good_cons good_num good_nil))
  have e8 : full haltRe s = _ := L [k "halt"] (by simp) (good_kcons _ (by decide) good_nil)
  have e9 := reg_tail s (rs := [k "reg", k "get", dotted]) (by simp)
    (good_kcons _ (by decide) (good_kcons _ (by decide) (good_cons good_dotted good_nil))) rfl
  have e10 : full writeRegRe s = _ := L [k "reg", k "set", dname, word] (by simp)
    (good_kcons _ (by decide) (good_kcons _ (by decide) (good_cons good_dname (good_cons good_word good_nil))))
  have e13 := mem_tail s (rs := [k "mem", k "get", word]) (by simp)
    (good_kcons _ (by decide) (good_kcons _ (by decide) (good_cons good_word good_nil))) rfl
  have e15 : full setBreakRe s = _ := L [k "break", k "set", dname] (by simp)
    (good_kcons _ (by decide) (good_kcons _ (by decide) (good_cons good_dname good_nil)))
  have e16 := full_nRe "break" (by decide) s .breakSetN
  have e17 : full clearBreakNRe s = _ := L [k "break", k "clear", hash] (by simp)
    (good_kcons _ (by decide) (good_kcons _ (by decide) (good_cons good_hash good_nil)))
  have e18 : full clearAllBreakRe s = _ := L [k "break", k "clear-all"] (by simp)
    (good_kcons _ (by decide) (good_kcons _ (by decide) good_nil))
  have e19 : full clearBreakRe s = _ := L [k "break", k "clear", dname] (by simp)
    (good_kcons _ (by decide) (good_kcons _ (by decide) (good_cons good_dname good_nil)))
  have e20 : full listBreakRe s = _ := L [k "break"] (by simp) (good_kcons _ (by decide) good_nil)
  have e21 : full helpRe s = _ := L [k "help"] (by simp) (good_kcons _ (by decide) good_nil)
  have e22 := reg_tail s (rs := [k "reg", dotted]) (by simp)
    (good_kcons _ (by decide) (good_cons good_dotted good_nil)) rfl
  have e23 : full setBreak2Re s = _ := L [k "break", dname] (by simp)
    (good_kcons _ (by decide) (good_cons good_dname good_nil))
  have e24 := watch_tail1 s hp (rs := [k "set", word, word])
    (good_kcons _ (by decide) (good_kcons _ (by decide) (good_cons good_word (good_cons good_word good_nil)))) rfl
  have e25 := full_nRe "watch" (by decide) s .watchSetN
  have e26 : full clearWatchNRe s = _ := L [k "watch", k "clear", hash] (by simp)
    (good_kcons _ (by decide) (good_kcons _ (by decide) (good_cons good_hash good_nil)))
  have e27 : full clearAllWatchRe s = _ := L [k "watch", k "clear-all"] (by simp)
    (good_kcons _ (by decide) (good_kcons _ (by decide) good_nil))
  have e28 := watch_tail3 s hp (rs := [k "clear", word])
    (good_kcons _ (by decide) (good_kcons _ (by decide) (good_cons good_word good_nil))) rfl
  have e29 := watch_tail2 s hp (rs := [word, word])
    (good_kcons _ (by decide) (good_cons good_word (good_cons good_word good_nil))) rfl
  have e30 : full listWatchRe s = _ := L [k "watch"] (by simp) (good_kcons _ (by decide) good_nil)
  have e31 := mem_tail s (rs := [k "mem", word]) (by simp)
    (good_kcons _ (by decide) (good_cons good_word good_nil)) rfl
  have e32 : full listActionRe s = _ := L [k "action"] (by simp) (good_kcons _ (by decide) good_nil)
  have e33 : full enableActionNRe s = _ := L [k "action", k "enable", .seq (k "*") num] (by simp)
    (good_kcons _ (by decide) (good_kcons _ (by decide) (good_cons good_star good_nil)))
  have e34 : full disableActionNRe s = _ := L [k "action", k "disable", .seq (k "*") num] (by simp)
    (good_kcons _ (by decide) (good_kcons _ (by decide) (good_cons good_star good_nil)))
  have e35 : full clearActionNRe s = _ := L [k "action", k "clear", .seq (k "*") num] (by simp)
    (good_kcons _ (by decide) (good_kcons _ (by decide) (good_cons good_star good_nil)))
  have e36 : full clearAllActionRe s = _ := L [k "action", k "clear-all"] (by simp)
    (good_kcons _ (by decide) (good_kcons _ (by decide) good_nil))
  have e37 : full branchTraceRe s = _ := L [k "branch-trace"] (by simp) (good_kcons _ (by decide) good_nil)
  rw [e1, e2, e3, e4, e5, e6, e7, e8, e10, e15, e17, e18, e19, e20, e21, e23, e26, e27, e30, e32, e33,
    e34, e35, e36, e37]
  unfold readRegRe readReg2Re readMemRe readMem2Re setWatchRe setWatch2Re clearWatchRe
  rw [e9, e13, e22, e24, e28, e29, e31, show setBreakNRe = nRe "break" from rfl,
    show setWatchNRe = nRe "watch" from rfl, e16, e25]
  rfl

end Verif.Shell
