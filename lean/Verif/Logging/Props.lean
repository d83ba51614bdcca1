import Verif.Logging.Model

/-!
# Properties of the log messages (C100)
-/

namespace Verif.Logging

/-! ### Specification -/

/-- The place of a level in the documented order, from the most to the least talkative. -/
def rank : Level → Nat
  | .ALL => 0 | .DEBUG => 1 | .SUBPROCESS => 2 | .VERBOSE => 3 | .INFO => 4 | .WARNING => 5 | .ERROR => 6 | .CRITICAL => 7

/-- The message has at least the level `l`. -/
def AtLeast (l : Level) (m : Msg) : Bool := decide (rank l ≤ rank m.level)

/-- The line of the console for a message: the output of other programs as it is; the tool's own messages as markup, warnings in
yellow and errors in red. -/
def Seen (markup : Str → Except String Str) (m : Msg) (line : Str) : Prop := match m.level with
  | .SUBPROCESS => line = m.text
  | .WARNING => markup ("[yellow]".toList ++ m.text) = .ok line
  | .ERROR => markup ("[red]".toList ++ m.text) = .ok line
  | _ => markup m.text = .ok line

/-- The messages of a run that are to be seen if `chosen` is given as log level: while the arguments are validated, the default
level applies. -/
def toSee (chosen : Level) (pre post : List Msg) : List Msg := pre.filter (AtLeast .SUBPROCESS) ++ post.filter (AtLeast chosen)

/-- The messages that are to be kept in the log files: those that are to be seen, without debug messages. -/
def toKeep (chosen : Level) (pre post : List Msg) : List Msg := (toSee chosen pre post).filter (AtLeast .SUBPROCESS)

/-! ### Lemmas -/

variable {markup : Str → Except String Str}

/-- The line of the console. -/
def lineOf (markup : Str → Except String Str) (m : Msg) : Except String Str :=
  if m.level = .SUBPROCESS then .ok m.text else markup (consoleText m.level m.text)

/-- The effect of one message on console and files, with the least level that is seen. -/
def step (markup : Str → Except String Str) (least : Level) (m : Msg) (o : Out) : Except String Out :=
  if AtLeast least m then match lineOf markup m with
    | .error e => .error e
    | .ok line => .ok ⟨o.console ++ [line], if AtLeast .SUBPROCESS m then o.plain ++ [m.text] else o.plain,
      if AtLeast .SUBPROCESS m then o.formatted ++ ["[".toList ++ m.level.name ++ "]    ".toList ++ m.text] else o.formatted⟩
  else .ok o

/-- The four handlers of a run. -/
def four : List Handler :=
  [⟨.raw, 0, [⟨["SUBPROCESS".toList], false⟩]⟩, ⟨.markup, 0, [⟨["SUBPROCESS".toList], true⟩]⟩, ⟨.plain, 12, []⟩, ⟨.formatted, 12, []⟩]

theorem gate (chosen l : Level) : effective (running chosen) ≤ l.value ↔
    rank (if chosen = .ALL then .WARNING else chosen) ≤ rank l := by
  cases chosen <;> cases l <;> decide

theorem handlers_four (chosen : Level) : (running chosen).handlers = four := by cases chosen <;> rfl

theorem call_four (m : Msg) (hm : m.args = []) (o : Out) :
    four.foldlM (fun o h => if h.level ≤ m.level.value ∧ h.filters.all (·.passes m.level.name) then emit markup h m o else .ok o) o =
      step markup .ALL m o := by
  obtain ⟨l, t, as⟩ := m
  simp only at hm
  subst hm
  have hmsg : ∀ l, message ⟨l, t, []⟩ = .ok t := fun l => by simp [message]
  have h1 : ∀ l, AtLeast .ALL ⟨l, t, []⟩ = true := fun l => by cases l <;> rfl
  unfold step four
  rw [h1]
  simp only [List.foldlM_cons, List.foldlM_nil, emit, hmsg, if_true]
  have p1 : ∀ l : Level, Filter.passes ⟨["SUBPROCESS".toList], false⟩ l.name = decide (l = .SUBPROCESS) := by intro l; cases l <;> decide
  have p2 : ∀ l : Level, Filter.passes ⟨["SUBPROCESS".toList], true⟩ l.name = decide (l ≠ .SUBPROCESS) := by intro l; cases l <;> decide
  have p3 : (12 ≤ l.value) ↔ AtLeast .SUBPROCESS ⟨l, t, []⟩ = true := by cases l <;> simp [AtLeast, rank, Level.value]
  simp only [List.all_cons, List.all_nil, p1, p2, p3, Bool.and_true, Nat.zero_le, true_and, decide_eq_true_eq, and_true]
  by_cases h : l = .SUBPROCESS
  · subst h
    rfl
  · simp only [h, if_false, not_false_eq_true, ne_eq, if_true]
    cases hr : markup (consoleText l t) with
    | error e => simp [bind, Except.bind, lineOf, hr, h]
    | ok line =>
      cases hl : AtLeast .SUBPROCESS ⟨l, t, []⟩ <;> simp [bind, Except.bind, lineOf, h, hr, fileText, pure, Except.pure]

theorem log_running (chosen : Level) (m : Msg) (hm : m.args = []) (o : Out) : log markup (running chosen) m o =
    step markup (if chosen = .ALL then .WARNING else chosen) m o := by
  unfold log
  rw [handlers_four, call_four m hm o]
  simp only [gate]
  unfold step
  have h1 : AtLeast .ALL m = true := by simp [AtLeast, rank]
  rw [h1, if_pos rfl]
  simp only [AtLeast, decide_eq_true_eq]

theorem log_validating (m : Msg) (hm : m.args = []) (o : Out) : log markup validating m o = step markup .SUBPROCESS m o :=
  log_running (markup := markup) .SUBPROCESS m hm o

/-- The line of the console for a message. -/
theorem seen_iff (m : Msg) (line : Str) : Seen markup m line ↔ lineOf markup m = .ok line := by
  obtain ⟨l, t, as⟩ := m
  cases l
  case SUBPROCESS =>
    refine ⟨fun h => ?_, fun h => ?_⟩
    · change line = t at h; subst h; rfl
    · change Except.ok t = Except.ok line at h; injection h with h; exact h.symm
  all_goals exact Iff.rfl

/-- What is visible after messages. -/
structure After (markup : Str → Except String Str) (see : List Msg) (o o' : Out) : Prop where
  console : ∃ lines, o'.console = o.console ++ lines ∧ List.Forall₂ (Seen markup) see lines
  plain : o'.plain = o.plain ++ (see.filter (AtLeast .SUBPROCESS)).map Msg.text
  formatted : o'.formatted = o.formatted ++
    (see.filter (AtLeast .SUBPROCESS)).map fun m => "[".toList ++ m.level.name ++ "]    ".toList ++ m.text

theorem step_after (least : Level) (m : Msg) (o o' : Out) (h : step markup least m o = .ok o') :
    After markup ([m].filter (AtLeast least)) o o' := by
  unfold step at h
  split at h
  · rename_i hl
    split at h
    · cases h
    · rename_i line hline
      injection h with h
      subst h
      rw [List.filter_cons_of_pos hl]
      refine ⟨⟨[line], rfl, List.Forall₂.cons ((seen_iff m line).2 hline) List.Forall₂.nil⟩, ?_, ?_⟩ <;>
      · simp only [List.filter_nil, List.filter_cons]
        split <;> simp
  · rename_i hl
    injection h with h
    subst h
    rw [List.filter_cons_of_neg hl]
    exact ⟨⟨[], by simp, List.Forall₂.nil⟩, by simp, by simp⟩

theorem forall₂_append {α β : Type} {R : α → β → Prop} {a b : List α} {c d : List β} (h : List.Forall₂ R a c) (h' : List.Forall₂ R b d) :
    List.Forall₂ R (a ++ b) (c ++ d) := by
  induction h with
  | nil => exact h'
  | cons h1 _ ih => exact List.Forall₂.cons h1 ih

theorem forall₂_left {α β : Type} {R : α → β → Prop} {a : List α} {c : List β} (h : List.Forall₂ R a c) {x : α} (hx : x ∈ a) :
    ∃ y, R x y := by
  induction h with
  | nil => cases hx
  | cons h1 _ ih =>
    rcases List.mem_cons.1 hx with rfl | hx
    · exact ⟨_, h1⟩
    · exact ih hx

theorem After.trans {a b : List Msg} {o o' o'' : Out} (h : After markup a o o') (h' : After markup b o' o'') :
    After markup (a ++ b) o o'' := by
  obtain ⟨⟨l1, e1, f1⟩, p1, q1⟩ := h
  obtain ⟨⟨l2, e2, f2⟩, p2, q2⟩ := h'
  refine ⟨⟨l1 ++ l2, by rw [e2, e1, List.append_assoc], forall₂_append f1 f2⟩, ?_, ?_⟩
  · rw [p2, p1]; simp
  · rw [q2, q1]; simp

theorem steps_after (least : Level) (ms : List Msg) (o o' : Out) (h : ms.foldlM (fun o m => step markup least m o) o = .ok o') :
    After markup (ms.filter (AtLeast least)) o o' := by
  induction ms generalizing o with
  | nil =>
    injection h with h
    subst h
    exact ⟨⟨[], by simp, List.Forall₂.nil⟩, by simp, by simp⟩
  | cons m ms ih =>
    rw [List.foldlM_cons] at h
    cases h1 : step markup least m o with
    | error e => rw [h1] at h; cases h
    | ok o1 =>
      rw [h1] at h
      have := (step_after least m o o1 h1).trans (ih o1 h)
      rwa [← List.filter_append] at this

theorem steps_ok (least : Level) (ms : List Msg) (o : Out) (h : ∀ m ∈ ms.filter (AtLeast least), ∃ line, Seen markup m line) :
    ∃ o', ms.foldlM (fun o m => step markup least m o) o = .ok o' := by
  induction ms generalizing o with
  | nil => exact ⟨o, rfl⟩
  | cons m ms ih =>
    rw [List.foldlM_cons]
    have ih := fun o => ih o fun m hm => h m (by
      rw [List.mem_filter] at hm ⊢
      exact ⟨List.mem_cons_of_mem _ hm.1, hm.2⟩)
    have : ∃ o1, step markup least m o = .ok o1 := by
      unfold step
      split
      · rename_i hl
        obtain ⟨line, hline⟩ := h m (by rw [List.mem_filter]; exact ⟨List.mem_cons_self, hl⟩)
        rw [(seen_iff m line).1 hline]
        exact ⟨_, rfl⟩
      · exact ⟨o, rfl⟩
    obtain ⟨o1, h1⟩ := this
    rw [h1]
    exact ih o1

theorem logs_eq (l : Logger) (least : Level) (hl : ∀ m, m.args = [] → ∀ o, log markup l m o = step markup least m o) (ms : List Msg)
    (hm : ∀ m ∈ ms, m.args = []) (o : Out) : logs markup l ms o = ms.foldlM (fun o m => step markup least m o) o := by
  unfold logs
  induction ms generalizing o with
  | nil => rfl
  | cons m ms ih =>
    rw [List.foldlM_cons, List.foldlM_cons, hl m (hm m List.mem_cons_self)]
    congr 1
    funext o'
    exact ih (fun m h => hm m (List.mem_cons_of_mem _ h)) o'

theorem session_eq (chosen : Level) (pre post : List Msg) (hm : ∀ m ∈ pre ++ post, m.args = []) :
    session markup chosen pre post = (do
      let o ← pre.foldlM (fun o m => step markup .SUBPROCESS m o) {}
      post.foldlM (fun o m => step markup (if chosen = .ALL then .WARNING else chosen) m o) o) := by
  unfold session
  rw [logs_eq validating .SUBPROCESS log_validating pre fun m h => hm m (List.mem_append_left _ h)]
  congr 1
  funext o
  exact logs_eq (running chosen) _ (log_running chosen) post (fun m h => hm m (List.mem_append_right _ h)) o

/-- The level that takes effect. -/
def actual (chosen : Level) : Level := if chosen = .ALL then .WARNING else chosen

theorem session_after (chosen : Level) (pre post : List Msg) (hm : ∀ m ∈ pre ++ post, m.args = []) (o : Out)
    (h : session markup chosen pre post = .ok o) : After markup (toSee (actual chosen) pre post) {} o := by
  rw [session_eq chosen pre post hm] at h
  cases h1 : pre.foldlM (fun o m => step markup .SUBPROCESS m o) {} with
  | error e => rw [h1] at h; cases h
  | ok o1 =>
    rw [h1] at h
    exact (steps_after _ pre _ _ h1).trans (steps_after _ post _ _ h)

theorem session_ok (chosen : Level) (pre post : List Msg) (hm : ∀ m ∈ pre ++ post, m.args = []) :
    (∃ o, session markup chosen pre post = .ok o) ↔ ∀ m ∈ toSee (actual chosen) pre post, ∃ line, Seen markup m line := by
  constructor
  · rintro ⟨o, h⟩ m hmem
    obtain ⟨⟨lines, -, hf⟩, -, -⟩ := session_after chosen pre post hm o h
    exact forall₂_left hf hmem
  · intro h
    rw [session_eq chosen pre post hm]
    obtain ⟨o1, h1⟩ := steps_ok (markup := markup) .SUBPROCESS pre {} fun m hmem => h m (List.mem_append_left _ hmem)
    rw [h1]
    exact steps_ok (markup := markup) (actual chosen) post o1 fun m hmem => h m (List.mem_append_right _ hmem)

/-! ### Theorems -/

/-- **C100 (partial).** With any log level but `all`: if every message to be seen can be shown, the run is not disturbed, the console
shows exactly the messages of the chosen level and above, each once, in order, and both log files have exactly these messages but
those for debugging, each once, in order.

Missing from the full property, because the program does not have it: the level `all` (`all_shows_warnings`), and messages that Rich
cannot show (`unreadable_ends_run`). -/
theorem messages_exact_partial (markup : Str → Except String Str) (chosen : Level) (hc : chosen ≠ .ALL) (pre post : List Msg)
    (hm : ∀ m ∈ pre ++ post, m.args = []) (hs : ∀ m ∈ toSee chosen pre post, ∃ line, Seen markup m line) :
    ∃ o, session markup chosen pre post = .ok o ∧ List.Forall₂ (Seen markup) (toSee chosen pre post) o.console ∧
      o.plain = (toKeep chosen pre post).map Msg.text ∧
      o.formatted = (toKeep chosen pre post).map fun m => "[".toList ++ m.level.name ++ "]    ".toList ++ m.text := by
  have ha : actual chosen = chosen := if_neg hc
  obtain ⟨o, h⟩ := (session_ok chosen pre post hm).2 (by rw [ha]; exact hs)
  obtain ⟨⟨lines, e, hf⟩, hp, hq⟩ := session_after chosen pre post hm o h
  rw [ha] at hf hp hq
  refine ⟨o, h, ?_, by simpa [toKeep] using hp, by simpa [toKeep] using hq⟩
  rw [e]
  exact hf

/-- **C100.** A louder level shows and keeps all that a quieter one does. -/
theorem louder_shows_more (chosen quieter : Level) (h : rank chosen ≤ rank quieter) (pre post : List Msg) :
    (toSee quieter pre post).Sublist (toSee chosen pre post) ∧ (toKeep quieter pre post).Sublist (toKeep chosen pre post) := by
  have key : (toSee quieter pre post).Sublist (toSee chosen pre post) := by
    refine List.Sublist.append_left ?_ _
    refine List.monotone_filter_right post fun m hm => ?_
    simp only [AtLeast, decide_eq_true_eq] at hm ⊢
    omega
  exact ⟨key, key.filter _⟩

/-- **C100 is false** for the level `all`: it shows and keeps only warnings and errors, as if `warning` had been chosen. -/
theorem all_shows_warnings (markup : Str → Except String Str) (pre post : List Msg) (hm : ∀ m ∈ pre ++ post, m.args = []) :
    session markup .ALL pre post = session markup .WARNING pre post := by
  rw [session_eq .ALL pre post hm, session_eq .WARNING pre post hm]
  rfl

/-- **C100 is false** for messages that Rich cannot show as markup: the first one ends the run with an exception. -/
theorem unreadable_ends_run (markup : Str → Except String Str) (chosen : Level) (hc : chosen ≠ .ALL) (pre post : List Msg)
    (hm : ∀ m ∈ pre ++ post, m.args = []) : (∃ e, session markup chosen pre post = .error e) ↔
      ∃ m ∈ toSee chosen pre post, ∀ line, ¬Seen markup m line := by
  have ha : actual chosen = chosen := if_neg hc
  have := session_ok (markup := markup) chosen pre post hm
  rw [ha] at this
  cases h : session markup chosen pre post with
  | ok o =>
    rw [h] at this
    have := this.1 ⟨o, rfl⟩
    constructor
    · rintro ⟨e, he⟩; cases he
    · rintro ⟨m, hmem, hno⟩
      obtain ⟨line, hl⟩ := this m hmem
      exact absurd hl (hno line)
  | error e =>
    rw [h] at this
    constructor
    · intro _
      by_contra hcon
      push Not at hcon
      obtain ⟨o, ho⟩ := this.2 hcon
      cases ho
    · exact fun _ => ⟨e, rfl⟩

/-- A text without placeholder cannot take arguments. -/
theorem percent_fails (s : Str) (as : List Str) (ha : as ≠ []) (hs : '%' ∉ s) :
    percent s as = .error "TypeError: not all arguments converted during string formatting" := by
  induction s with
  | nil =>
    cases as with
    | nil => exact absurd rfl ha
    | cons a as => rfl
  | cons c s ih =>
    have hc : c ≠ '%' := fun h => hs (by rw [h]; exact List.mem_cons_self)
    have ih := ih fun h => hs (List.mem_cons_of_mem _ h)
    unfold percent
    split <;> simp_all [bind, Except.bind]

/-- **C100.** An error message with an argument but no placeholder for it is not shown; the call raises a `TypeError`.  This is the
message about a `--diel` filter that cannot be parsed (kpex_cli.py 466). -/
theorem argument_raises (markup : Str → Except String Str) (m : Msg) (hl : m.level = .ERROR) (ha : m.args ≠ []) (hs : '%' ∉ m.text)
    (o : Out) : log markup validating m o = .error "TypeError: not all arguments converted during string formatting" := by
  obtain ⟨l, t, as⟩ := m
  simp only at hl ha hs
  subst hl
  have hmsg : message ⟨.ERROR, t, as⟩ = .error "TypeError: not all arguments converted during string formatting" := by
    unfold message
    rw [if_neg ha]
    exact percent_fails t as ha hs
  have hg : effective validating ≤ Level.ERROR.value := by decide
  unfold log
  rw [if_pos hg]
  have hh : validating.handlers = four := rfl
  rw [hh]
  unfold four
  simp only [List.foldlM_cons, List.foldlM_nil, emit, hmsg]
  rfl

/-- **C100.** `kpex` accepts exactly the levels that its help lists, in any letter case, and `default`; each name gives its level,
and `default` the level of the output of other programs. -/
theorem listed_accepted (n : Str) : ((∃ l, byName (n.map Char.toUpper) = some l) ↔
      (∃ w ∈ ["all", "debug", "subprocess", "verbose", "info", "warning", "error", "critical"], w.toList ∈ listed ∧
        n.map Char.toUpper = w.toList.map Char.toUpper) ∨ n.map Char.toUpper = "DEFAULT".toList) ∧
    listed.length = 8 ∧ ∀ e ∈ [("ALL", Level.ALL), ("DEBUG", .DEBUG), ("SUBPROCESS", .SUBPROCESS), ("VERBOSE", .VERBOSE),
      ("INFO", .INFO), ("WARNING", .WARNING), ("ERROR", .ERROR), ("CRITICAL", .CRITICAL), ("DEFAULT", .SUBPROCESS)],
      byName e.1.toList = some e.2 := by
  refine ⟨?_, rfl, by decide⟩
  generalize n.map Char.toUpper = k
  unfold byName
  by_cases hd : k = "DEFAULT".toList
  · simp [hd]
  · rw [if_neg hd]
    simp only [hd, or_false]
    rw [← Option.isSome_iff_exists, List.find?_isSome]
    constructor
    · rintro ⟨l, hl, h⟩
      simp only [decide_eq_true_eq] at h
      subst h
      cases l
      · exact ⟨"all", by decide, by decide, by decide⟩
      · exact ⟨"debug", by decide, by decide, by decide⟩
      · exact ⟨"subprocess", by decide, by decide, by decide⟩
      · exact ⟨"verbose", by decide, by decide, by decide⟩
      · exact ⟨"info", by decide, by decide, by decide⟩
      · exact ⟨"warning", by decide, by decide, by decide⟩
      · exact ⟨"error", by decide, by decide, by decide⟩
      · exact ⟨"critical", by decide, by decide, by decide⟩
    · rintro ⟨w, hw, -, rfl⟩
      simp only [List.mem_cons, List.not_mem_nil, or_false] at hw
      rcases hw with rfl | rfl | rfl | rfl | rfl | rfl | rfl | rfl
      · exact ⟨.ALL, by decide, by decide⟩
      · exact ⟨.DEBUG, by decide, by decide⟩
      · exact ⟨.SUBPROCESS, by decide, by decide⟩
      · exact ⟨.VERBOSE, by decide, by decide⟩
      · exact ⟨.INFO, by decide, by decide⟩
      · exact ⟨.WARNING, by decide, by decide⟩
      · exact ⟨.ERROR, by decide, by decide⟩
      · exact ⟨.CRITICAL, by decide, by decide⟩

/-- **C100 is false** for the netlist tool: it accepts no value for its log level. -/
theorem netlist_level_rejected (s : Str) : byValue (.str s) = none := by
  unfold byValue
  rw [List.find?_eq_none]
  intro l _
  simp

/-! ### Non-vacuity -/

/-- Markup that removes a colour at the start and refuses texts with a closing tag. -/
def exMarkup (s : Str) : Except String Str :=
  if (s.zip s.tail).contains ('[', '/') then .error "MarkupError"
  else .ok (if s.take 5 = "[red]".toList then s.drop 5 else s)

def exPre : List Msg := [⟨.INFO, "Cell inv".toList, []⟩]
def exPost : List Msg := [⟨.DEBUG, "d".toList, []⟩, ⟨.SUBPROCESS, "[/x]".toList, []⟩, ⟨.ERROR, "no".toList, []⟩]

/-- The hypotheses of `messages_exact_partial` hold, and the messages are seen. -/
example : (∀ m ∈ exPre ++ exPost, m.args = []) ∧
    session exMarkup .DEBUG exPre exPost = .ok ⟨["Cell inv".toList, "d".toList, "[/x]".toList, "no".toList],
      ["Cell inv".toList, "[/x]".toList, "no".toList],
      ["[INFO]    Cell inv".toList, "[SUBPROCESS]    [/x]".toList, "[ERROR]    no".toList]⟩ := by
  refine ⟨by simp [exPre, exPost], by decide +kernel⟩

/-- With `all` less is seen than with `debug`. -/
example : session exMarkup .ALL exPre exPost = .ok ⟨["Cell inv".toList, "no".toList], ["Cell inv".toList, "no".toList],
    ["[INFO]    Cell inv".toList, "[ERROR]    no".toList]⟩ := by decide +kernel

/-- A file name with a bracket and a slash ends the run. -/
example : session exMarkup .INFO [] [⟨.INFO, "a[/b].gds".toList, []⟩] = .error "MarkupError" := by decide +kernel

example : log exMarkup validating ⟨.ERROR, "Failed to parse --diel arg".toList, ["both".toList]⟩ {} =
    .error "TypeError: not all arguments converted during string formatting" := by decide +kernel

end Verif.Logging
