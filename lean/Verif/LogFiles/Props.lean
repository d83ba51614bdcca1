import Verif.LogFiles.Model
import Verif.Common.Text

/-!
# Logs are kept (C48)
-/

namespace Verif.LogFiles

/-! ### Specification -/

/-- Every file of `fs` is still there in `fs'`, possibly under another name and with messages added at its end. -/
def Kept (fs fs' : FS) : Prop := ∀ p f, fs p = some f → ∃ p' f', fs' p' = some f' ∧ f.content <+: f'.content

/-- Time stamps begin with a digit and are different for different seconds. -/
def Stamps (stamp : Nat → Str) : Prop :=
  (∀ t, ∃ d r, stamp t = d :: r ∧ d.isDigit = true) ∧ ∀ s t, stamp s = stamp t → s = t

/-- The runs follow each other, each one beginning at least a second after the end of the previous one. -/
def Sequential : Nat → List Run → Prop
  | _, [] => True
  | t, r :: rs => t < r.start ∧ r.start ≤ r.stop ∧ Sequential r.stop rs

/-- The directory of a run is not the directory given by `--out_dir` itself (it is a subdirectory of it). -/
def Subdir (r : Run) : Prop := r.out ≠ some r.base

/-! ### Single steps -/

theorem Kept.refl (fs : FS) : Kept fs fs := fun p f h => ⟨p, f, h, List.prefix_refl _⟩

theorem Kept.trans {a b c : FS} (h1 : Kept a b) (h2 : Kept b c) : Kept a c := by
  intro p f h
  obtain ⟨p', f', h', e⟩ := h1 p f h
  obtain ⟨p'', f'', h'', e'⟩ := h2 p' f' h'
  exact ⟨p'', f'', h'', e.trans e'⟩

theorem openLog_at (now : Nat) (p q : Path) (fs : FS) :
    openLog now p fs q = if q = p then some ((fs p).getD ⟨[], now⟩) else fs q := by
  unfold openLog
  cases hp : fs p with
  | some g =>
    by_cases h : q = p
    · subst h; rw [if_pos rfl]; exact hp
    · rw [if_neg h]
  | none => rfl

theorem write_at (now : Nat) (p q : Path) (msgs : List Str) (fs : FS) :
    write now p msgs fs q = if q = p then (fs p).map (fun f => ⟨f.content ++ msgs, now⟩) else fs q := by
  unfold write
  cases hp : fs p with
  | some g => rfl
  | none =>
    by_cases h : q = p
    · subst h; rw [if_pos rfl]; exact hp
    · rw [if_neg h]

theorem move_at (now : Nat) (src dst q : Path) (fs : FS) (f : File) (h : fs src = some f) :
    move now src dst fs q = if q = dst then some ⟨f.content, now⟩ else if q = src then none else fs q := by
  unfold move
  rw [h]
  rfl

/-- The effect of moving a log. -/
theorem reregister_at (stamp : Nat → Str) (now : Nat) (base out log : Str) (fs : FS) (g : File) (hne : out ≠ base)
    (hg : fs (base, log) = some g) (q : Path) :
    reregister stamp now base out log fs q =
      if q = (out, log) then some ⟨g.content, now⟩
      else if q = (base, log) then none
      else (fs (out, log)).elim (fs q) (fun f => if q = (out, backupName log (stamp f.ctime)) then some ⟨f.content, now⟩ else fs q) := by
  unfold reregister
  have h0 : ((base, log) : Path) ≠ (out, log) := fun e => hne (Prod.mk.inj e).1.symm
  cases ho : fs (out, log) with
  | none =>
    simp only
    rw [move_at now _ _ q fs g hg]
    rfl
  | some f =>
    simp only
    have h1 : move now (out, log) (out, backupName log (stamp f.ctime)) fs (base, log) = some g := by
      rw [move_at now _ _ _ fs f ho, if_neg (fun e => hne (Prod.mk.inj e).1.symm), if_neg h0]
      exact hg
    rw [move_at now _ _ q _ g h1]
    by_cases e1 : q = (out, log)
    · rw [if_pos e1, if_pos e1]
    · rw [if_neg e1, if_neg e1]
      by_cases e2 : q = (base, log)
      · rw [if_pos e2, if_pos e2]
      · rw [if_neg e2, if_neg e2, move_at now _ _ q fs f ho, if_neg e1]
        rfl

/-! ### Names of backups -/

theorem backup_inj (log : Str) (a b : Str) (h : backupName log a = backupName log b) : a = b := by
  unfold backupName at h
  rw [List.append_assoc, List.append_assoc] at h
  have := List.append_cancel_left h
  rw [List.cons_append, List.cons_append] at this
  exact List.append_cancel_right (List.cons.inj this).2

theorem backup_plain (s : Str) : backupName plain s = "kpex_plain_".toList ++ (s ++ ".bak.log".toList) := by
  unfold backupName; rfl

theorem backup_formatted (s : Str) : backupName formatted s = "kpex_".toList ++ (s ++ ".bak.log".toList) := by
  unfold backupName; rfl

theorem digit_ne {stamp : Nat → Str} (hs : Stamps stamp) (t : Nat) (r : Str) (c : Char) (hc : c.isDigit = false) :
    stamp t ++ ".bak.log".toList ≠ c :: r := by
  obtain ⟨d, x, e, hd⟩ := hs.1 t
  rw [e]
  intro h
  have := (List.cons.inj h).1
  subst this
  rw [hc] at hd; cases hd

/-- A log of the tool. -/
def IsLog (log : Str) : Prop := log = plain ∨ log = formatted

theorem backup_ne_backup {stamp : Nat → Str} (hs : Stamps stamp) {log log' : Str} (h : IsLog log) (h' : IsLog log')
    (hne : log ≠ log') (s t : Nat) : backupName log (stamp s) ≠ backupName log' (stamp t) := by
  have key : ∀ s t, backupName plain (stamp s) ≠ backupName formatted (stamp t) := by
    intro s t e
    rw [backup_plain, backup_formatted] at e
    have e' : "kpex_".toList ++ ("plain_".toList ++ (stamp s ++ ".bak.log".toList)) =
        "kpex_".toList ++ (stamp t ++ ".bak.log".toList) := e
    exact digit_ne hs t _ 'p' (by decide) (List.append_cancel_left e').symm
  rcases h with rfl | rfl <;> rcases h' with rfl | rfl
  · exact absurd rfl hne
  · exact key s t
  · exact fun e => key t s e.symm
  · exact absurd rfl hne

theorem backup_ne_log {stamp : Nat → Str} (hs : Stamps stamp) {log log' : Str} (h : IsLog log) (h' : IsLog log') (s : Nat) :
    backupName log (stamp s) ≠ log' := by
  rcases h with rfl | rfl
  · rw [backup_plain]
    rcases h' with rfl | rfl
    · intro e
      have : "kpex_plain".toList ++ ('_' :: (stamp s ++ ".bak.log".toList)) = "kpex_plain".toList ++ ".log".toList := e
      have := List.append_cancel_left this
      exact absurd (List.cons.inj this).1 (by decide)
    · intro e
      have : "kpex".toList ++ ('_' :: ("plain_".toList ++ (stamp s ++ ".bak.log".toList))) = "kpex".toList ++ ".log".toList := e
      have := List.append_cancel_left this
      exact absurd (List.cons.inj this).1 (by decide)
  · rw [backup_formatted]
    rcases h' with rfl | rfl
    · intro e
      have : "kpex_".toList ++ (stamp s ++ ".bak.log".toList) = "kpex_".toList ++ "plain.log".toList := e
      exact digit_ne hs s _ 'p' (by decide) (List.append_cancel_left this)
    · intro e
      have : "kpex".toList ++ ('_' :: (stamp s ++ ".bak.log".toList)) = "kpex".toList ++ ".log".toList := e
      have := List.append_cancel_left this
      exact absurd (List.cons.inj this).1 (by decide)

/-! ### The effect of a run -/

theorem plain_ne : plain ≠ formatted := by decide

/-- The state when the log is moved. -/
def prepared (r : Run) (fs : FS) : FS :=
  write r.start (r.base, formatted) r.pre (write r.start (r.base, plain) r.pre
    (openLog r.start (r.base, formatted) (openLog r.start (r.base, plain) fs)))

theorem prepared_log (r : Run) (fs : FS) (log : Str) (h : IsLog log) :
    prepared r fs (r.base, log) = some ⟨(fs (r.base, log)).elim [] File.content ++ r.pre, r.start⟩ := by
  have hp : ((r.base, plain) : Path) ≠ (r.base, formatted) := fun e => plain_ne (Prod.mk.inj e).2
  unfold prepared
  rcases h with rfl | rfl
  · rw [write_at, if_neg hp, write_at, if_pos rfl, openLog_at, if_neg hp, openLog_at, if_pos rfl]
    cases fs (r.base, plain) <;> rfl
  · rw [write_at, if_pos rfl, write_at, if_neg (Ne.symm hp), openLog_at, if_pos rfl, openLog_at, if_neg (Ne.symm hp)]
    cases fs (r.base, formatted) <;> rfl

theorem prepared_other (r : Run) (fs : FS) (q : Path) (h : ∀ log, IsLog log → q ≠ (r.base, log)) : prepared r fs q = fs q := by
  have h1 := h plain (.inl rfl)
  have h2 := h formatted (.inr rfl)
  unfold prepared
  rw [write_at, if_neg h2, write_at, if_neg h1, openLog_at, if_neg h2, openLog_at, if_neg h1]

/-- The state after the logs have been moved. -/
def moved (stamp : Nat → Str) (r : Run) (out : Str) (fs : FS) : FS :=
  reregister stamp r.start r.base out formatted (reregister stamp r.start r.base out plain (prepared r fs))

theorem run_eq (stamp : Nat → Str) (r : Run) (fs : FS) :
    run stamp r fs = r.out.elim (prepared r fs) (fun out =>
      if r.valid then write r.stop (out, formatted) r.post (write r.stop (out, plain) r.post (moved stamp r out fs))
      else moved stamp r out fs) := by
  unfold run
  cases h : r.out <;> rfl

theorem moved_at {stamp : Nat → Str} (hs : Stamps stamp) (r : Run) (out : Str) (hne : out ≠ r.base) (fs : FS) (log : Str)
    (h : IsLog log) :
    moved stamp r out fs (out, log) = some ⟨(fs (r.base, log)).elim [] File.content ++ r.pre, r.start⟩ ∧
    moved stamp r out fs (r.base, log) = none ∧
    ∀ f, fs (out, log) = some f → moved stamp r out fs (out, backupName log (stamp f.ctime)) = some ⟨f.content, r.start⟩ := by
  have hp : ∀ d d' : Str, ((d, plain) : Path) ≠ (d', formatted) := fun d d' e => plain_ne (Prod.mk.inj e).2
  have hob : ∀ l : Str, ((out, l) : Path) ≠ (r.base, l) := fun l e => hne (Prod.mk.inj e).1
  have hbl : ∀ log log', IsLog log → IsLog log' → ∀ s, backupName log (stamp s) ≠ log' :=
    fun log log' h h' s => backup_ne_log hs h h' s
  have hout : ∀ q, q.1 = out → prepared r fs q = fs q := fun q hq =>
    prepared_other r fs q fun log _ e => hne (by rw [← hq, e])
  have r1 := fun q => reregister_at stamp r.start r.base out plain (prepared r fs) _ hne
    (prepared_log r fs plain (.inl rfl)) q
  have hf : reregister stamp r.start r.base out plain (prepared r fs) (r.base, formatted) =
      some ⟨(fs (r.base, formatted)).elim [] File.content ++ r.pre, r.start⟩ := by
    rw [r1, if_neg (fun e => hp _ _ e.symm), if_neg (fun e => hp _ _ e.symm)]
    rw [prepared_log r fs formatted (.inr rfl)]
    cases prepared r fs (out, plain) with
    | none => rfl
    | some f => exact if_neg fun e => hne (Prod.mk.inj e).1.symm
  have r2 := fun q => reregister_at stamp r.start r.base out formatted _ _ hne hf q
  have hof : reregister stamp r.start r.base out plain (prepared r fs) (out, formatted) = fs (out, formatted) := by
    rw [r1, if_neg (fun e => hp _ _ e.symm), if_neg (fun e => hp _ _ e.symm), hout (out, plain) rfl,
      hout (out, formatted) rfl]
    cases fs (out, plain) with
    | none => rfl
    | some f => exact if_neg fun e => hbl plain formatted (.inl rfl) (.inr rfl) _ (Prod.mk.inj e).2.symm
  unfold moved
  rcases h with rfl | rfl
  · refine ⟨?_, ?_, fun f hf' => ?_⟩
    · rw [r2, if_neg (hp _ _), if_neg (hp _ _), hof, r1, if_pos rfl]
      cases fs (out, formatted) with
      | none => rfl
      | some f => exact if_neg fun e => hbl formatted plain (.inr rfl) (.inl rfl) _ (Prod.mk.inj e).2.symm
    · rw [r2, if_neg (hp _ _), if_neg (hp _ _), hof, r1, if_neg (Ne.symm (hob _)), if_pos rfl]
      cases fs (out, formatted) with
      | none => rfl
      | some f => exact if_neg fun e => hne (Prod.mk.inj e).1.symm
    · rw [r2, if_neg (fun e => hbl plain formatted (.inl rfl) (.inr rfl) _ (Prod.mk.inj e).2),
        if_neg (fun e => hne (Prod.mk.inj e).1), hof, r1,
        if_neg (fun e => hbl plain plain (.inl rfl) (.inl rfl) _ (Prod.mk.inj e).2),
        if_neg (fun e => hne (Prod.mk.inj e).1), hout _ rfl, hf', Option.elim_some, if_pos rfl]
      cases fs (out, formatted) with
      | none => rfl
      | some f => exact if_neg fun e => backup_ne_backup hs (.inl rfl) (.inr rfl) plain_ne _ _ (Prod.mk.inj e).2
  · refine ⟨?_, ?_, fun f hf' => ?_⟩
    · rw [r2, if_pos rfl]
    · rw [r2, if_neg (Ne.symm (hob _)), if_pos rfl]
    · rw [r2, if_neg (fun e => hbl formatted formatted (.inr rfl) (.inr rfl) _ (Prod.mk.inj e).2),
        if_neg (fun e => hne (Prod.mk.inj e).1), hof, hf', Option.elim_some, if_pos rfl]

theorem moved_other {stamp : Nat → Str} (hs : Stamps stamp) (r : Run) (out : Str) (hne : out ≠ r.base) (fs : FS) (q : Path)
    (h1 : ∀ log, IsLog log → q ≠ (out, log) ∧ q ≠ (r.base, log))
    (h2 : ∀ log f, IsLog log → fs (out, log) = some f → q ≠ (out, backupName log (stamp f.ctime))) :
    moved stamp r out fs q = fs q := by
  have hp : ∀ d d' : Str, ((d, plain) : Path) ≠ (d', formatted) := fun d d' e => plain_ne (Prod.mk.inj e).2
  have hbl : ∀ log log', IsLog log → IsLog log' → ∀ s, backupName log (stamp s) ≠ log' :=
    fun log log' h h' s => backup_ne_log hs h h' s
  have hout : ∀ q, q.1 = out → prepared r fs q = fs q := fun q hq =>
    prepared_other r fs q fun log _ e => hne (by rw [← hq, e])
  have r1 := fun q => reregister_at stamp r.start r.base out plain (prepared r fs) _ hne
    (prepared_log r fs plain (.inl rfl)) q
  have hf : reregister stamp r.start r.base out plain (prepared r fs) (r.base, formatted) =
      some ⟨(fs (r.base, formatted)).elim [] File.content ++ r.pre, r.start⟩ := by
    rw [r1, if_neg (fun e => hp _ _ e.symm), if_neg (fun e => hp _ _ e.symm)]
    rw [prepared_log r fs formatted (.inr rfl)]
    cases prepared r fs (out, plain) with
    | none => rfl
    | some f => exact if_neg fun e => hne (Prod.mk.inj e).1.symm
  have r2 := fun q => reregister_at stamp r.start r.base out formatted _ _ hne hf q
  have hof : reregister stamp r.start r.base out plain (prepared r fs) (out, formatted) = fs (out, formatted) := by
    rw [r1, if_neg (fun e => hp _ _ e.symm), if_neg (fun e => hp _ _ e.symm), hout (out, plain) rfl,
      hout (out, formatted) rfl]
    cases fs (out, plain) with
    | none => rfl
    | some f => exact if_neg fun e => hbl plain formatted (.inl rfl) (.inr rfl) _ (Prod.mk.inj e).2.symm
  have hq : reregister stamp r.start r.base out plain (prepared r fs) q = fs q := by
    rw [r1, if_neg (h1 plain (.inl rfl)).1, if_neg (h1 plain (.inl rfl)).2, hout (out, plain) rfl,
      prepared_other r fs q fun log hl => (h1 log hl).2]
    cases hc : fs (out, plain) with
    | none => rfl
    | some f => exact if_neg (h2 plain f (.inl rfl) hc)
  unfold moved
  rw [r2, if_neg (h1 formatted (.inr rfl)).1, if_neg (h1 formatted (.inr rfl)).2, hof, hq]
  cases hc : fs (out, formatted) with
  | none => rfl
  | some f => exact if_neg (h2 formatted f (.inr rfl) hc)

/-- The logs of a run, where they end up. -/
theorem run_logs {stamp : Nat → Str} (hs : Stamps stamp) (r : Run) (out : Str) (ho : r.out = some out) (hne : out ≠ r.base)
    (hle : r.start ≤ r.stop) (fs : FS) (log : Str) (h : IsLog log) :
    ∃ f, run stamp r fs (out, log) = some f ∧ r.start ≤ f.ctime ∧ f.ctime ≤ r.stop ∧
      f.content = (fs (r.base, log)).elim [] File.content ++ r.pre ++ if r.valid then r.post else [] := by
  obtain ⟨h1, _, _⟩ := moved_at hs r out hne fs log h
  rw [run_eq, ho, Option.elim_some]
  cases hv : r.valid with
  | false => exact ⟨_, h1, Nat.le_refl _, hle, by simp⟩
  | true =>
    have hp : ((out, plain) : Path) ≠ (out, formatted) := fun e => plain_ne (Prod.mk.inj e).2
    simp only [if_true]
    rcases h with rfl | rfl
    · refine ⟨⟨_, r.stop⟩, ?_, hle, Nat.le_refl _, rfl⟩
      rw [write_at, if_neg hp, write_at, if_pos rfl, h1]; rfl
    · refine ⟨⟨_, r.stop⟩, ?_, hle, Nat.le_refl _, rfl⟩
      rw [write_at, if_pos rfl, write_at, if_neg (Ne.symm hp), h1]; rfl

theorem run_other {stamp : Nat → Str} (r : Run) (out : Str) (ho : r.out = some out) (fs : FS) (q : Path)
    (h1 : ∀ log, IsLog log → q ≠ (out, log)) : run stamp r fs q = moved stamp r out fs q := by
  rw [run_eq, ho, Option.elim_some]
  cases hv : r.valid with
  | false => rfl
  | true =>
    simp only [if_true]
    rw [write_at, if_neg (h1 formatted (.inr rfl)), write_at, if_neg (h1 plain (.inl rfl))]

/-! ### C48, one run -/

/-- For each log, if there is one in the directory of the run, there is no backup with its time stamp yet. -/
def NoClash (stamp : Nat → Str) (fs : FS) (out : Str) : Prop :=
  ∀ log f, (log = "kpex_plain.log".toList ∨ log = "kpex.log".toList) → fs (out, log) = some f →
    fs (out, (log.take (log.length - 4) ++ "_".toList ++ stamp f.ctime ++ ".bak.log".toList)) = none

/-- **C48, one run (partial).** A run keeps all logs unless a backup with the time stamp of the previous log exists. -/
theorem run_keeps_partial {stamp : Nat → Str} (hs : Stamps stamp) (r : Run) (hd : Subdir r) (hle : r.start ≤ r.stop) (fs : FS)
    (hc : ∀ out, r.out = some out → NoClash stamp fs out) : Kept fs (run stamp r fs) := by
  intro p f hf
  cases ho : r.out with
  | none =>
    rw [run_eq, ho, Option.elim_none]
    by_cases h : ∃ log, IsLog log ∧ p = (r.base, log)
    · obtain ⟨log, hl, rfl⟩ := h
      exact ⟨_, _, prepared_log r fs log hl, by rw [hf]; exact List.prefix_append _ _⟩
    · push Not at h
      exact ⟨p, f, by rw [prepared_other r fs p h]; exact hf, List.prefix_refl _⟩
  | some out =>
    have hne : out ≠ r.base := fun e => hd (by rw [ho, e])
    have hnc : ∀ log f, IsLog log → fs (out, log) = some f → fs (out, backupName log (stamp f.ctime)) = none := by
      intro log f hl hf
      have := hc out ho log f hl hf
      rw [List.append_assoc (log.take (log.length - 4))] at this
      exact this
    by_cases hb : ∃ log, IsLog log ∧ p = (r.base, log)
    · obtain ⟨log, hl, rfl⟩ := hb
      obtain ⟨g, hg, _, _, hc'⟩ := run_logs hs r out ho hne hle fs log hl
      refine ⟨_, g, hg, ?_⟩
      rw [hc', hf, List.append_assoc]
      exact List.prefix_append _ _
    · push Not at hb
      by_cases h : ∃ log, IsLog log ∧ p = (out, log)
      · obtain ⟨log, hl, rfl⟩ := h
        obtain ⟨_, _, h3⟩ := moved_at hs r out hne fs log hl
        refine ⟨(out, backupName log (stamp f.ctime)), ⟨f.content, r.start⟩, ?_, List.prefix_refl _⟩
        · rw [run_other r out ho fs _ fun log' hl' e => backup_ne_log hs hl hl' _ (Prod.mk.inj e).2]
          exact h3 f hf
      · push Not at h
        refine ⟨p, f, ?_, List.prefix_refl _⟩
        rw [run_other r out ho fs p h, moved_other hs r out hne fs p (fun log hl => ⟨h log hl, hb log hl⟩)]
        · exact hf
        · rintro log g hl hg rfl
          rw [hnc log g hl hg] at hf
          cases hf

/-! ### C48, histories -/

/-- All logs and backups are not younger than `T`, and the backups in a directory are older than the log there. -/
def Inv (stamp : Nat → Str) (T : Nat) (fs : FS) : Prop :=
  (∀ d log f, IsLog log → fs (d, log) = some f → f.ctime ≤ T) ∧
  (∀ d log s, IsLog log → fs (d, backupName log (stamp s)) ≠ none → s ≤ T ∧
    ∀ f, fs (d, log) = some f → s < f.ctime)

theorem inv_noClash {stamp : Nat → Str} {T : Nat} {fs : FS} (h : Inv stamp T fs) (out : Str) : NoClash stamp fs out := by
  intro log f hl hf
  rw [List.append_assoc (log.take (log.length - 4))]
  by_contra hn
  exact Nat.lt_irrefl _ ((h.2 out log f.ctime hl hn).2 f hf)

theorem run_inv {stamp : Nat → Str} (hs : Stamps stamp) (r : Run) (hd : Subdir r) (T : Nat) (hT : T < r.start)
    (hle : r.start ≤ r.stop) (fs : FS) (h : Inv stamp T fs) : Inv stamp r.stop (run stamp r fs) := by
  cases ho : r.out with
  | none =>
    rw [run_eq, ho, Option.elim_none]
    have hlog : ∀ d log f, IsLog log → prepared r fs (d, log) = some f → (d = r.base ∧ f.ctime = r.start) ∨ fs (d, log) = some f := by
      intro d log f hl hf
      by_cases hb : d = r.base
      · subst hb; rw [prepared_log r fs log hl] at hf; cases hf; exact .inl ⟨rfl, rfl⟩
      · rw [prepared_other r fs _ fun log' _ e => hb (Prod.mk.inj e).1] at hf
        exact .inr hf
    refine ⟨fun d log f hl hf => ?_, fun d log s hl hb => ?_⟩
    · rcases hlog d log f hl hf with ⟨_, e⟩ | h'
      · rw [e]; exact hle
      · have := h.1 d log f hl h'; omega
    · rw [prepared_other r fs _ fun log' hl' e => backup_ne_log hs hl hl' _ (Prod.mk.inj e).2] at hb
      obtain ⟨h1, h2⟩ := h.2 d log s hl hb
      refine ⟨by omega, fun f hf => ?_⟩
      rcases hlog d log f hl hf with ⟨_, e⟩ | h'
      · omega
      · exact h2 f h'
  | some out =>
    have hne : out ≠ r.base := fun e => hd (by rw [ho, e])
    have hlog : ∀ d log f, IsLog log → run stamp r fs (d, log) = some f →
        (d = out ∧ r.start ≤ f.ctime ∧ f.ctime ≤ r.stop) ∨ (d ≠ out ∧ fs (d, log) = some f) := by
      intro d log f hl hf
      by_cases hb : d = out
      · subst hb
        obtain ⟨g, hg, h1, h2, _⟩ := run_logs hs r d ho hne hle fs log hl
        rw [hg] at hf; cases hf
        exact .inl ⟨rfl, h1, h2⟩
      · refine .inr ⟨hb, ?_⟩
        rw [run_other r out ho fs _ fun log' _ e => hb (Prod.mk.inj e).1] at hf
        by_cases hbb : d = r.base
        · subst hbb; rw [(moved_at hs r out hne fs log hl).2.1] at hf; cases hf
        · rw [moved_other hs r out hne fs _ (fun _ _ => ⟨fun e => hb (Prod.mk.inj e).1, fun e => hbb (Prod.mk.inj e).1⟩)
            (fun _ _ _ _ e => hb (Prod.mk.inj e).1)] at hf
          exact hf
    refine ⟨fun d log f hl hf => ?_, fun d log s hl hb => ?_⟩
    · rcases hlog d log f hl hf with ⟨_, _, h2⟩ | ⟨_, h'⟩
      · exact h2
      · have := h.1 d log f hl h'; omega
    · rw [run_other r out ho fs _ fun log' hl' e => backup_ne_log hs hl hl' _ (Prod.mk.inj e).2] at hb
      have hsT : s ≤ T ∧ (d ≠ out → ∀ f, fs (d, log) = some f → s < f.ctime) := by
        by_cases hnew : ∃ f, fs (out, log) = some f ∧ d = out ∧ s = f.ctime
        · obtain ⟨f, hf, rfl, rfl⟩ := hnew
          exact ⟨h.1 _ log f hl hf, fun hne => absurd rfl hne⟩
        · rw [moved_other hs r out hne fs _ (fun log' hl' => ⟨fun e => backup_ne_log hs hl hl' _ (Prod.mk.inj e).2,
            fun e => backup_ne_log hs hl hl' _ (Prod.mk.inj e).2⟩)] at hb
          · obtain ⟨h1, h2⟩ := h.2 d log s hl hb
            exact ⟨h1, fun _ => h2⟩
          · intro log' f hl' hf e
            obtain ⟨e1, e2⟩ := Prod.mk.inj e
            by_cases hll : log = log'
            · subst hll
              exact hnew ⟨f, hf, e1, hs.2 _ _ (backup_inj _ _ _ e2)⟩
            · exact backup_ne_backup hs hl hl' hll _ _ e2
      refine ⟨by omega, fun f hf => ?_⟩
      rcases hlog d log f hl hf with ⟨_, h1, _⟩ | ⟨h0, h'⟩
      · omega
      · exact hsT.2 h0 f h'

/-- **C48 (partial).** In every history of runs each of which begins at least a second after the end of the previous one,
every log file that exists at some time is kept by all later runs. -/
theorem history_keeps_partial {stamp : Nat → Str} (hs : Stamps stamp) (before after : List Run)
    (hseq : Sequential 0 (before ++ after)) (hd : ∀ r ∈ before ++ after, Subdir r) :
    Kept (runs stamp before (fun _ => none)) (runs stamp (before ++ after) (fun _ => none)) := by
  have key : ∀ rs T fs, Inv stamp T fs → Sequential T rs → (∀ r ∈ rs, Subdir r) → Kept fs (runs stamp rs fs) := by
    intro rs
    induction rs with
    | nil => intro T fs _ _ _; exact Kept.refl _
    | cons r rs ih =>
      intro T fs hi hq hsub
      refine Kept.trans (run_keeps_partial hs r (hsub r List.mem_cons_self) hq.2.1 fs fun out _ => inv_noClash hi out) ?_
      exact ih _ _ (run_inv hs r (hsub r List.mem_cons_self) T hq.1 hq.2.1 fs hi) hq.2.2
        fun r' hr' => hsub r' (List.mem_cons_of_mem _ hr')
  have inv : ∀ rs T fs, Inv stamp T fs → Sequential T (rs ++ after) → (∀ r ∈ rs, Subdir r) →
      ∃ T', Inv stamp T' (runs stamp rs fs) ∧ Sequential T' after := by
    intro rs
    induction rs with
    | nil => intro T fs hi hq _; exact ⟨T, hi, hq⟩
    | cons r rs ih =>
      intro T fs hi hq hsub
      exact ih _ _ (run_inv hs r (hsub r List.mem_cons_self) T hq.1 hq.2.1 fs hi) hq.2.2
        fun r' hr' => hsub r' (List.mem_cons_of_mem _ hr')
  have h0 : Inv stamp 0 (fun _ => none) := ⟨fun _ _ _ _ h => (by cases h), fun _ _ _ _ h => absurd rfl h⟩
  obtain ⟨T', hi, hq⟩ := inv before 0 _ h0 hseq fun r hr => hd r (List.mem_append_left _ hr)
  have := key after T' _ hi hq fun r hr => hd r (List.mem_append_right _ hr)
  unfold runs at this ⊢
  rw [List.foldl_append]
  exact this

/-- What a run logs is in the log of its directory. -/
theorem run_logged {stamp : Nat → Str} (hs : Stamps stamp) (r : Run) (out : Str) (ho : r.out = some out) (hd : Subdir r)
    (hle : r.start ≤ r.stop) (hv : r.valid = true) (fs : FS) (log : Str)
    (h : log = "kpex_plain.log".toList ∨ log = "kpex.log".toList) :
    ∃ f, run stamp r fs (out, log) = some f ∧ (r.pre ++ r.post) <:+ f.content := by
  obtain ⟨f, h1, _, _, h2⟩ := run_logs hs r out ho (fun e => hd (by rw [ho, e])) hle fs log h
  refine ⟨f, h1, ?_⟩
  rw [h2, hv, if_pos rfl, List.append_assoc]
  exact List.suffix_append _ _

/-! ### Examples -/

/-- A time stamp: digits. -/
def sampleStamp (t : Nat) : Str := (toString t).toList

def sampleRun (msg : Str) (t : Nat) : Run := ⟨"output".toList, some "output/a__TOP".toList, true, [], [msg], t, t⟩

theorem sampleStamps : Stamps sampleStamp := by
  refine ⟨fun t => ?_, fun s t h => dec_inj h⟩
  unfold sampleStamp
  cases h : (toString t).toList with
  | nil => exact absurd h (dec_ne_nil t)
  | cons d r => exact ⟨d, r, rfl, dec_digits (n := t) (by rw [h]; exact List.mem_cons_self)⟩

/-- The logs are in place and everything else is a backup with the given content. -/
def sampleState (msg : Str) (backups : Path → File → Prop) (fs : FS) : Prop :=
  (∀ log, IsLog log → fs ("output/a__TOP".toList, log) = some ⟨[msg], 5⟩ ∧ fs ("output".toList, log) = none) ∧
  (∀ q f, fs q = some f → (∀ log, IsLog log → q ≠ ("output/a__TOP".toList, log)) → backups q f)

theorem sample_first (msg : Str) : sampleState msg (fun _ _ => False) (run sampleStamp (sampleRun msg 5) fun _ => none) := by
  have hne : "output/a__TOP".toList ≠ "output".toList := by decide
  refine ⟨fun log hl => ?_, fun q f hf hq => ?_⟩
  · obtain ⟨f, h1, h2, h3, h4⟩ := run_logs sampleStamps (sampleRun msg 5) _ rfl hne (Nat.le_refl _) (fun _ => none) log hl
    have e : f = ⟨[msg], 5⟩ := by
      obtain ⟨c, t⟩ := f
      have : t = 5 := Nat.le_antisymm h3 h2
      subst this
      have : c = [msg] := h4
      rw [this]
    rw [h1, e]
    refine ⟨rfl, ?_⟩
    rw [run_other _ _ rfl _ _ (fun log' _ e => hne (Prod.mk.inj e).1.symm)]
    exact (moved_at sampleStamps (sampleRun msg 5) _ hne _ log hl).2.1
  · rw [run_other _ _ rfl _ _ hq] at hf
    by_cases hb : ∃ log, IsLog log ∧ q = ("output".toList, log)
    · obtain ⟨log, hl, rfl⟩ := hb
      rw [show (("output".toList, log) : Path) = ((sampleRun msg 5).base, log) from rfl,
        (moved_at sampleStamps (sampleRun msg 5) _ hne _ log hl).2.1] at hf
      cases hf
    · push Not at hb
      rw [moved_other sampleStamps (sampleRun msg 5) _ hne _ q (fun log hl => ⟨hq log hl, hb log hl⟩)
        (fun _ _ _ h => (by cases h))] at hf
      cases hf

theorem sample_next (msg old : Str) (backups : Path → File → Prop) (fs : FS) (h : sampleState old backups fs)
    (hb : ∀ q f, backups q f → ∃ log, IsLog log ∧ q = ("output/a__TOP".toList, backupName log (sampleStamp 5))) :
    sampleState msg (fun q f => (∃ log, IsLog log ∧ q = ("output/a__TOP".toList, backupName log (sampleStamp 5))) ∧
      f.content = [old]) (run sampleStamp (sampleRun msg 5) fs) := by
  have hne : "output/a__TOP".toList ≠ "output".toList := by decide
  refine ⟨fun log hl => ?_, fun q f hf hq => ?_⟩
  · obtain ⟨f, h1, h2, h3, h4⟩ := run_logs sampleStamps (sampleRun msg 5) _ rfl hne (Nat.le_refl _) fs log hl
    have e : f = ⟨[msg], 5⟩ := by
      obtain ⟨c, t⟩ := f
      have : t = 5 := Nat.le_antisymm h3 h2
      subst this
      have : c = (fs ("output".toList, log)).elim [] File.content ++ [] ++ [msg] := h4
      rw [this, (h.1 log hl).2]
      rfl
    rw [h1, e]
    refine ⟨rfl, ?_⟩
    rw [run_other _ _ rfl _ _ (fun log' _ e => hne (Prod.mk.inj e).1.symm)]
    exact (moved_at sampleStamps (sampleRun msg 5) _ hne _ log hl).2.1
  · rw [run_other _ _ rfl _ _ hq] at hf
    by_cases hbb : ∃ log, IsLog log ∧ q = ("output".toList, log)
    · obtain ⟨log, hl, rfl⟩ := hbb
      rw [show (("output".toList, log) : Path) = ((sampleRun msg 5).base, log) from rfl,
        (moved_at sampleStamps (sampleRun msg 5) _ hne _ log hl).2.1] at hf
      cases hf
    · push Not at hbb
      by_cases hn : ∃ log, IsLog log ∧ q = ("output/a__TOP".toList, backupName log (sampleStamp 5))
      · refine ⟨hn, ?_⟩
        obtain ⟨log, hl, rfl⟩ := hn
        have := (moved_at sampleStamps (sampleRun msg 5) _ hne fs log hl).2.2 _ (h.1 log hl).1
        have e := hf.symm.trans this
        cases e
        rfl
      · rw [moved_other sampleStamps (sampleRun msg 5) _ hne _ q (fun log hl => ⟨hq log hl, hbb log hl⟩)] at hf
        · exact absurd (hb q f (h.2 q f hf hq)) hn
        · intro log g hl hg e
          rw [(h.1 log hl).1] at hg
          cases hg
          exact hn ⟨log, hl, e⟩

theorem runs_nil (stamp : Nat → Str) (fs : FS) : runs stamp [] fs = fs := rfl

theorem runs_cons (stamp : Nat → Str) (r : Run) (rs : List Run) (fs : FS) :
    runs stamp (r :: rs) fs = runs stamp rs (run stamp r fs) := rfl

/-- **C48 fails for runs within a second**: of three runs at the same second the log of the first one is lost. -/
theorem log_lost (m1 m2 m3 : Str) (h2 : m1 ≠ m2) (h3 : m1 ≠ m3) :
    ¬ Kept (runs sampleStamp [sampleRun m1 5] (fun _ => none))
      (runs sampleStamp [sampleRun m1 5, sampleRun m2 5, sampleRun m3 5] (fun _ => none)) := by
  rw [runs_cons, runs_nil, runs_cons, runs_cons, runs_cons, runs_nil]
  have s1 := sample_first m1
  generalize run sampleStamp (sampleRun m1 5) (fun _ => none) = fs1 at s1 ⊢
  have s2 := sample_next m2 m1 _ _ s1 (fun _ _ h => h.elim)
  generalize run sampleStamp (sampleRun m2 5) fs1 = fs2 at s2 ⊢
  have s3 := sample_next m3 m2 _ _ s2 (fun q f h => h.1)
  generalize run sampleStamp (sampleRun m3 5) fs2 = fs3 at s3 ⊢
  intro hk
  obtain ⟨q, f, hf, r, hr⟩ := hk ("output/a__TOP".toList, formatted) ⟨[m1], 5⟩ (s1.1 formatted (.inr rfl)).1
  by_cases hq : ∃ log, IsLog log ∧ q = ("output/a__TOP".toList, log)
  · obtain ⟨log, hl, rfl⟩ := hq
    rw [(s3.1 log hl).1] at hf
    have := Option.some.inj hf
    rw [← this] at hr
    exact h3 (List.cons.inj hr).1
  · push Not at hq
    rw [(s3.2 q f hf hq).2] at hr
    exact h2 (List.cons.inj hr).1

example : Sequential 0 [sampleRun "1".toList 5, sampleRun "2".toList 6] ∧ Subdir (sampleRun "1".toList 5) := by
  refine ⟨⟨by decide, Nat.le_refl _, by decide, Nat.le_refl _, trivial⟩, ?_⟩
  unfold Subdir sampleRun
  decide

end Verif.LogFiles
