import Verif.Model.Log

namespace Verif.Props
open Verif.Py Verif.Model.Log

/-- The numeric severity of a level name. -/
def severity : String → Option ℕ
  | "DEBUG" => some 10
  | "INFO" => some 20
  | "WARN" => some 30
  | "WARNING" => some 30
  | "ERROR" => some 40
  | "FATAL" => some 50
  | "CRITICAL" => some 50
  | _ => none

/-- The call asks for a log file. -/
def wantsFile (c : Call) : Prop := ∃ p, c.path = some p ∧ p ≠ ""

/-- The call can create a logger: valid level and, if a file is asked for, a file that opens. -/
def Creates (c : Call) (level : String) : Prop :=
  effLevel c = level ∧ (severity level).isSome ∧ (wantsFile c → c.canOpen = true)

/-- `lg` is what the arguments of `c` ask for. -/
def AsAsked (c : Call) (lg : Logger) : Prop :=
  severity (effLevel c) = some lg.level ∧
  (∀ s, lg.level ≤ s → emit lg s = Target.stderr :: (match c.path with
      | some p => if p = "" then [] else [.file p]
      | none => [])) ∧
  (∀ s, s < lg.level → emit lg s = []) ∧
  (∀ h ∈ lg.handlers, h.timestamps = c.timestamps)

theorem loglevel_iff (l : String) (n : ℕ) : loglevel l = .ok n ↔ severity l = some n := by
  unfold loglevel severity
  split_ifs with h1 h2 h3 h4 h5
  · subst h1; simp
  · subst h2; simp
  · rcases h3 with rfl | rfl <;> simp
  · subst h4; simp
  · rcases h5 with rfl | rfl <;> simp
  · push Not at h3 h5
    split <;> simp_all

theorem loglevel_error (l : String) (h : severity l = none) : loglevel l = .error .valueError := by
  cases hl : loglevel l with
  | ok n => rw [loglevel_iff, h] at hl; cases hl
  | error e =>
    unfold loglevel at hl
    split_ifs at hl
    injection hl with hl
    rw [hl]

theorem hasPath_iff (c : Call) : hasPath c = true ↔ wantsFile c := by
  unfold hasPath wantsFile
  cases c.path <;> simp

theorem newLogger_ok {c : Call} {lv : ℕ} (hl : severity (effLevel c) = some lv)
    (h : wantsFile c → c.canOpen = true) : ∃ lg, newLogger c lv = .ok lg ∧ AsAsked c lg := by
  unfold newLogger AsAsked
  by_cases hp : wantsFile c
  · obtain ⟨p, e, hne⟩ := hp
    have hp' : wantsFile c := ⟨p, e, hne⟩
    rw [if_pos ((hasPath_iff c).2 hp'), if_pos (h hp'), e]
    refine ⟨_, rfl, hl, ?_, ?_, ?_⟩
    · intro s hs
      have hs : lv ≤ s := hs
      simp [emit, hs, hne]
    · intro s hs
      have hs : s < lv := hs
      simp [emit, hs]
    · simp
  · rw [if_neg (by rw [hasPath_iff]; exact hp)]
    refine ⟨_, rfl, hl, ?_, ?_, ?_⟩
    · intro s hs
      have hs : lv ≤ s := hs
      unfold wantsFile at hp
      cases e : c.path with
      | none => simp [emit, hs]
      | some p =>
        have : p = "" := by by_contra hne; exact hp ⟨p, e, hne⟩
        simp [emit, hs, this]
    · intro s hs
      have hs : s < lv := hs
      simp [emit, hs]
    · simp

theorem newLogger_fail {c : Call} {lv : ℕ} (h : ¬ (wantsFile c → c.canOpen = true)) :
    newLogger c lv = .error .runtimeError := by
  push Not at h
  unfold newLogger
  rw [if_pos ((hasPath_iff c).2 h.1), if_neg h.2]

/-- One call, all cases. -/
theorem getLogger_cases (st : State) (c : Call) :
    (severity (effLevel c) = none ∧ getLogger st c = (.error .valueError, st)) ∨
    (∃ lg, (severity (effLevel c)).isSome ∧ st.get? (effLevel c) = some lg ∧ getLogger st c = (.ok lg, st)) ∨
    (∃ lg, Creates c (effLevel c) ∧ st.get? (effLevel c) = none ∧ AsAsked c lg ∧
      getLogger st c = (.ok lg, st.set (effLevel c) lg)) ∨
    ((severity (effLevel c)).isSome ∧ ¬ Creates c (effLevel c) ∧ st.get? (effLevel c) = none ∧
      getLogger st c = (.error .runtimeError, st)) := by
  cases hs : severity (effLevel c) with
  | none => left; refine ⟨rfl, ?_⟩; unfold getLogger; simp only [loglevel_error _ hs]
  | some lv =>
    right
    have hl := (loglevel_iff _ _).2 hs
    cases hg : st.get? (effLevel c) with
    | some lg => left; refine ⟨lg, rfl, rfl, ?_⟩; unfold getLogger; simp only [hl, hg]
    | none =>
      right
      by_cases hc : wantsFile c → c.canOpen = true
      · left
        obtain ⟨lg, h1, h2⟩ := newLogger_ok hs hc
        refine ⟨lg, ⟨rfl, by rw [hs]; rfl, hc⟩, rfl, h2, ?_⟩
        unfold getLogger; simp only [hl, hg, h1]
      · right
        refine ⟨rfl, fun h => hc h.2.2, rfl, ?_⟩
        unfold getLogger; simp only [hl, hg, newLogger_fail hc]

theorem run_snoc (cs : List Call) (c : Call) : run (cs ++ [c]) = (getLogger (run cs) c).2 := by
  simp [run]

open Classical in
/-- The dictionary after a history: the logger of a level is the one asked for by the first
call able to create it. -/
theorem run_spec (cs : List Call) (level : String) :
    match cs.find? (fun c => Creates c level) with
    | some c => ∃ lg, (run cs).get? level = some lg ∧ AsAsked c lg
    | none => (run cs).get? level = none := by
  induction cs using List.reverseRecOn with
  | nil => simp [run, Dict.get?]
  | append_singleton cs c ih =>
    rw [List.find?_append, run_snoc]
    have hstay : (getLogger (run cs) c).2 = run cs ∨ ∃ lg, (getLogger (run cs) c).2 = (run cs).set (effLevel c) lg ∧
        Creates c (effLevel c) ∧ AsAsked c lg ∧ (run cs).get? (effLevel c) = none := by
      rcases getLogger_cases (run cs) c with ⟨-, h⟩ | ⟨lg, -, -, h⟩ | ⟨lg, h1, h2, h3, h⟩ | ⟨-, -, -, h⟩
      · left; rw [h]
      · left; rw [h]
      · right; exact ⟨lg, by rw [h], h1, h3, h2⟩
      · left; rw [h]
    cases hf : cs.find? (fun c => Creates c level) with
    | some c0 =>
      rw [hf] at ih
      obtain ⟨lg0, h0, h0'⟩ := ih
      simp only [Option.some_or]
      refine ⟨lg0, ?_, h0'⟩
      rcases hstay with h | ⟨lg, h, -, -, hn⟩
      · rw [h]; exact h0
      · rw [h, Dict.get?_set, if_neg, h0]
        rintro rfl
        rw [h0] at hn; cases hn
    | none =>
      rw [hf] at ih
      simp only [Option.none_or, List.find?_cons, List.find?_nil]
      by_cases hc : Creates c level
      · simp only [hc, decide_true]
        have hlev := hc.1
        rcases getLogger_cases (run cs) c with ⟨h1, h⟩ | ⟨lg, -, h1, h⟩ | ⟨lg, h1, h2, h3, h⟩ | ⟨-, h1, -, h⟩
        · exfalso; have := hc.2.1; rw [← hlev, h1] at this; cases this
        · exfalso; rw [hlev] at h1; simp only [h1] at ih; cases ih
        · exact ⟨lg, by rw [h]; simp only; rw [hlev, Dict.get?_set_self], h3⟩
        · exfalso; apply h1; rw [hlev]; exact hc
      · simp only [hc, decide_false]
        rcases hstay with h | ⟨lg, h, hcr, -, -⟩
        · rw [h]; exact ih
        · rw [h, Dict.get?_set, if_neg]
          · exact ih
          · rintro rfl; exact hc hcr

open Classical in
/-- C34: whatever calls were made before, the logger returned is the one asked for by the
first call (of the history followed by this call) able to create a logger of this level. -/
theorem C34_first_call (hist : List Call) (c : Call) (hlev : (severity (effLevel c)).isSome) :
    match (hist ++ [c]).find? (fun c' => Creates c' (effLevel c)) with
    | some c0 => ∃ lg, (getLogger (run hist) c).1 = .ok lg ∧ AsAsked c0 lg
    | none => (getLogger (run hist) c).1 = .error .runtimeError := by
  have h := run_spec (hist ++ [c]) (effLevel c)
  have hget : ∀ lg, (run (hist ++ [c])).get? (effLevel c) = some lg → (getLogger (run hist) c).1 = .ok lg := by
    intro lg hlg
    rw [run_snoc] at hlg
    rcases getLogger_cases (run hist) c with ⟨h1, h⟩ | ⟨lg', -, h1, h⟩ | ⟨lg', h1, h2, h3, h⟩ | ⟨-, h1, h2, h⟩
    · rw [h1] at hlev; cases hlev
    · rw [h] at hlg ⊢; simp only at hlg; rw [h1] at hlg; injection hlg with hlg; rw [hlg]
    · rw [h] at hlg ⊢; simp only at hlg; rw [Dict.get?_set_self] at hlg; injection hlg with hlg; rw [hlg]
    · rw [h] at hlg; simp only at hlg; rw [h2] at hlg; cases hlg
  have hnone : (run (hist ++ [c])).get? (effLevel c) = none → (getLogger (run hist) c).1 = .error .runtimeError := by
    intro hlg
    rw [run_snoc] at hlg
    rcases getLogger_cases (run hist) c with ⟨h1, h⟩ | ⟨lg', -, h1, h⟩ | ⟨lg', h1, h2, h3, h⟩ | ⟨-, h1, h2, h⟩
    · rw [h1] at hlev; cases hlev
    · rw [h] at hlg; simp only at hlg; rw [h1] at hlg; cases hlg
    · rw [h] at hlg; simp only at hlg; rw [Dict.get?_set_self] at hlg; cases hlg
    · rw [h]
  cases hf : (hist ++ [c]).find? (fun c' => Creates c' (effLevel c)) with
  | some c0 =>
    rw [hf] at h
    obtain ⟨lg, h1, h2⟩ := h
    exact ⟨lg, hget lg h1, h2⟩
  | none =>
    rw [hf] at h
    exact hnone h

/-- C34: after any history, a logger that is returned has the level asked for, and a message
goes to the console exactly once when its severity reaches that level and not at all
otherwise. -/
theorem C34_console_once (hist : List Call) (c : Call) (lg : Logger)
    (h : (getLogger (run hist) c).1 = .ok lg) :
    severity (effLevel c) = some lg.level ∧
      ∀ s, (emit lg s).count .stderr = if lg.level ≤ s then 1 else 0 := by
  have hlev : (severity (effLevel c)).isSome := by
    rcases getLogger_cases (run hist) c with ⟨h1, h2⟩ | ⟨lg', h1, -, -⟩ | ⟨lg', h1, -, -, -⟩ | ⟨h1, -, -, h2⟩
    · rw [h2] at h; cases h
    · exact h1
    · exact h1.2.1
    · exact h1
  classical
  have hfc := C34_first_call hist c hlev
  cases hf : (hist ++ [c]).find? (fun c' => Creates c' (effLevel c)) with
  | none => rw [hf] at hfc; rw [h] at hfc; cases hfc
  | some c0 =>
    rw [hf] at hfc
    obtain ⟨lg', h1, h2, h3, h4, -⟩ := hfc
    rw [h] at h1
    injection h1 with h1
    subst h1
    have hc0 := List.find?_some hf
    simp only [decide_eq_true_eq] at hc0
    rw [hc0.1] at h2
    refine ⟨h2, ?_⟩
    intro s
    split_ifs with hs
    · rw [h3 s hs, List.count_cons_self]
      cases c0.path with
      | none => rfl
      | some p => simp only; split_ifs <;> simp
    · rw [h4 s (by omega)]; rfl

/-- C34: a level name that is not one of the seven raises ValueError and leaves all loggers
as they were; in particular lower-case names are only understood in the environment
variable. -/
theorem C34_invalid (st : State) (c : Call) (h : severity (effLevel c) = none) :
    getLogger st c = (.error .valueError, st) := by
  rcases getLogger_cases st c with ⟨-, h2⟩ | ⟨lg', h1, -, -⟩ | ⟨lg', h1, -, -, -⟩ | ⟨h1, -, -, h2⟩
  · exact h2
  · rw [h] at h1; cases h1
  · have := h1.2.1; rw [h] at this; cases this
  · rw [h] at h1; cases h1

/-- C34 (finding): the file and time stamp options of a call are ignored when a logger of
that level exists already: for every path there is a history after which asking for a log
file gives a logger that never writes to it. -/
theorem C34_path_ignored (p : String) (ts : Bool) :
    ∃ hist : List Call, ∃ lg, (getLogger (run hist) ⟨some "INFO", some p, ts, none, true⟩).1 = .ok lg ∧
      ∀ s, Target.file p ∉ emit lg s ∧ ∀ h ∈ lg.handlers, h.timestamps = !ts := by
  refine ⟨[⟨some "INFO", none, !ts, none, true⟩], ⟨20, [⟨.stderr, 20, !ts⟩]⟩, rfl, ?_⟩
  intro s
  constructor
  · unfold emit
    split_ifs with h
    · have h : 20 ≤ s := h
      simp [h]
    · simp
  · simp

/-- The first call with a level gives what it asks for. -/
example : ∃ lg, (getLogger (run [⟨some "DEBUG", none, false, none, true⟩]) ⟨some "INFO", some "a.log", true, none, true⟩).1
    = .ok lg ∧ emit lg 20 = [.stderr, .file "a.log"] := ⟨_, rfl, rfl⟩

end Verif.Props
