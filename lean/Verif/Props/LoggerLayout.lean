import Verif.Props.Logger

/-! # Properties: layout of log lines, contents of log files over whole runs -/

namespace Bezman.Props
open Spec Logger

/-! ## C74 -/

theorem getTimeStamp_eq (now : String) (s : State) :
    getTimeStamp now s = if s.outputlevel.testBit 5 then "[" ++ now ++ "]" else "" := by
  unfold getTimeStamp
  rw [test_bit 5 .time_stamp rfl s]

theorem consoleLine_layout (s : State) (now head code t : String) (h : head.length + code.length + 7 ≤ 20) :
    ∃ pre post, Layout (consoleLine s now head code t) 20 head (if s.outputlevel.testBit 5 then "[" ++ now ++ "]" else "")
      (pre ++ t ++ post) := by
  refine ⟨"\x1b[" ++ code ++ "m", "\x1b[0m", 20 - (colorText head code).length, "\x1b[" ++ code ++ "m", "\x1b[0m", ?_, ?_⟩
  · rw [← getTimeStamp_eq]
    unfold consoleLine setw colorText
    simp only [String.append_assoc]
  · have e1 : ("\x1b[" : String).length = 2 := rfl
    have e2 : ("m" : String).length = 1 := rfl
    have e3 : ("\x1b[0m" : String).length = 4 := rfl
    unfold colorText
    simp only [String.length_append, e1, e2, e3]
    omega

theorem fileLine_layout (s : State) (now head t : String) (h : head.length ≤ 10) :
    Layout (fileLine s now head t) 10 head (if s.outputlevel.testBit 5 then "[" ++ now ++ "]" else "") t := by
  refine ⟨10 - head.length, "", "", ?_, ?_⟩
  · rw [← getTimeStamp_eq]
    unfold fileLine setw
    simp only [String.append_assoc, String.empty_append]
  · have e : ("" : String).length = 0 := rfl
    rw [e]; omega

/-- C74. Every line a call writes to the console has a first column of 20 characters that shows the label of the call, then the time
stamp if the level asks for it, then the text of the call. -/
theorem C74_console (enabled : Bool) (c : Call) (s : State) :
    ∃ new : List String, (call enabled c s).1.console = s.console ++ new ∧
      ∀ line ∈ new, ∃ t pre post, text c = some t ∧ Layout line 20 (consoleLabel c) (stamp s.outputlevel c) (pre ++ t ++ post) := by
  have hopen : ∀ f : FileId, (init enabled s).outputlevel.testBit (fileBit f) = true → enabled = true →
      ((init enabled s).file f).isOpen = true := fun f h he => init_open he (by simpa using h)
  have aux : ∀ (b : Bool) (now head code t : String) (c : Call), head.length + code.length + 7 ≤ 20 → text c = some t → consoleLabel c = head → timeOf c = now →
      ∀ line ∈ (if b then [consoleLine (init enabled s) now head code t] else []), ∃ t pre post, text c = some t ∧
        Layout line 20 (consoleLabel c) (stamp s.outputlevel c) (pre ++ t ++ post) := by
    intro b now head code t c hl h1 h2 h3 line hline
    cases b
    · cases hline
    · rw [if_pos rfl, List.mem_singleton] at hline
      obtain ⟨pre, post, h⟩ := consoleLine_layout (init enabled s) now head code t hl
      refine ⟨t, pre, post, h1, ?_⟩
      subst hline
      unfold stamp
      rw [h2, h3]
      simpa using h
  cases c
  · exact ⟨[], by simp [call], by simp⟩
  · exact ⟨[], by simp [call], by simp⟩
  all_goals simp only [call]
  · refine ⟨_, (message_spec enabled 2 .warnings rfl .warning _ _ _ _ _ _ (hopen _)).2.1.trans (by rw [init_console, init_level]), ?_⟩
    exact aux _ _ _ _ _ _ (by decide) rfl rfl rfl
  · refine ⟨_, (message_spec enabled 0 .userinfo rfl .log _ _ _ _ _ _ (hopen _)).2.1.trans (by rw [init_console, init_level]), ?_⟩
    exact aux _ _ _ _ _ _ (by decide) rfl rfl rfl
  · refine ⟨_, (message_spec enabled 3 .logging rfl .log _ _ _ _ _ _ (hopen _)).2.1.trans (by rw [init_console, init_level]), ?_⟩
    exact aux _ _ _ _ _ _ (by decide) rfl rfl rfl
  · refine ⟨_, (message_spec enabled 4 .logging_verbose rfl .log _ _ _ _ _ _ (hopen _)).2.1.trans (by rw [init_console, init_level]), ?_⟩
    exact aux _ _ _ _ _ _ (by decide) rfl rfl rfl
  · refine ⟨_, (message_spec enabled 1 .errors rfl .error _ _ _ _ _ _ (hopen _)).2.1.trans (by rw [init_console, init_level]), ?_⟩
    exact aux _ _ _ _ _ _ (by decide) rfl rfl rfl
  · refine ⟨_, (terminatingError_spec enabled _ _ _ (hopen _)).2.1.trans (by rw [init_console, init_level]), ?_⟩
    exact aux _ _ _ _ _ _ (by decide) rfl rfl rfl

/-- C74. On the console the label and the text of a message have the colour of its kind, and the terminal is back to its own colour
after each of them. -/
theorem C74_colours (enabled : Bool) (c : Call) (s : State) :
    ∃ new : List String, (call enabled c s).1.console = s.console ++ new ∧
      ∀ line ∈ new, ∃ t k, text c = some t ∧ line = "[" ++ (String.ofList (List.replicate k ' ') ++ inColour (colour c) (consoleLabel c)) ++ "]" ++
        stamp s.outputlevel c ++ " : " ++ inColour (colour c) t ++ "\n" := by
  have hopen : ∀ f : FileId, (init enabled s).outputlevel.testBit (fileBit f) = true → enabled = true →
      ((init enabled s).file f).isOpen = true := fun f h he => init_open he (by simpa using h)
  have aux : ∀ (b : Bool) (now head code t : String) (c : Call), text c = some t → consoleLabel c = head → timeOf c = now → colour c = code →
      ∀ line ∈ (if b then [consoleLine (init enabled s) now head code t] else []), ∃ t k, text c = some t ∧
        line = "[" ++ (String.ofList (List.replicate k ' ') ++ inColour (colour c) (consoleLabel c)) ++ "]" ++
          stamp s.outputlevel c ++ " : " ++ inColour (colour c) t ++ "\n" := by
    intro b now head code t c h1 h2 h3 h4 line hline
    cases b
    · cases hline
    · rw [if_pos rfl, List.mem_singleton] at hline
      refine ⟨t, 20 - (colorText head code).length, h1, ?_⟩
      subst hline
      unfold stamp
      rw [h2, h3, h4]
      unfold consoleLine setw colorText inColour
      rw [getTimeStamp_eq, init_level]
  cases c
  · exact ⟨[], by simp [call], by simp⟩
  · exact ⟨[], by simp [call], by simp⟩
  all_goals simp only [call]
  · refine ⟨_, (message_spec enabled 2 .warnings rfl .warning _ _ _ _ _ _ (hopen _)).2.1.trans (by rw [init_console, init_level]), ?_⟩
    exact aux _ _ _ _ _ _ rfl rfl rfl rfl
  · refine ⟨_, (message_spec enabled 0 .userinfo rfl .log _ _ _ _ _ _ (hopen _)).2.1.trans (by rw [init_console, init_level]), ?_⟩
    exact aux _ _ _ _ _ _ rfl rfl rfl rfl
  · refine ⟨_, (message_spec enabled 3 .logging rfl .log _ _ _ _ _ _ (hopen _)).2.1.trans (by rw [init_console, init_level]), ?_⟩
    exact aux _ _ _ _ _ _ rfl rfl rfl rfl
  · refine ⟨_, (message_spec enabled 4 .logging_verbose rfl .log _ _ _ _ _ _ (hopen _)).2.1.trans (by rw [init_console, init_level]), ?_⟩
    exact aux _ _ _ _ _ _ rfl rfl rfl rfl
  · refine ⟨_, (message_spec enabled 1 .errors rfl .error _ _ _ _ _ _ (hopen _)).2.1.trans (by rw [init_console, init_level]), ?_⟩
    exact aux _ _ _ _ _ _ rfl rfl rfl rfl
  · refine ⟨_, (terminatingError_spec enabled _ _ _ (hopen _)).2.1.trans (by rw [init_console, init_level]), ?_⟩
    exact aux _ _ _ _ _ _ rfl rfl rfl rfl

/-- C74. Every line a call writes to a file has a first column of 10 characters that shows the label of the file, then the time
stamp if the level asks for it, then exactly the text of the call. -/
theorem C74_file (enabled : Bool) (c : Call) (s : State) (f : FileId) :
    ∃ old new : List String, ((call enabled c s).1.file f).lines = old ++ new ∧ (old = (s.file f).lines ∨ old = []) ∧
      ∀ line ∈ new, ∃ t, text c = some t ∧ Layout line 10 (fileLabel f) (stamp s.outputlevel c) t := by
  have hopen : ∀ f : FileId, (init enabled s).outputlevel.testBit (fileBit f) = true → enabled = true →
      ((init enabled s).file f).isOpen = true := fun f h he => init_open he (by simpa using h)
  have hi : ∀ s : State, ((init enabled s).file f).lines = (s.file f).lines ∨ ((init enabled s).file f).lines = [] := by
    intro s
    rw [init_file]
    split
    · exact Or.inr rfl
    · exact Or.inl rfl
  have hset : ∀ n, ((init enabled { (init enabled s) with outputlevel := n }).file f).lines = (s.file f).lines ∨
      ((init enabled { (init enabled s) with outputlevel := n }).file f).lines = [] := by
    intro n
    rcases hi { (init enabled s) with outputlevel := n } with h | h
    · rw [h]; exact hi s
    · exact Or.inr h
  have lay : ∀ (now head t : String) (c : Call), head.length ≤ 10 → text c = some t → timeOf c = now → fileLabel f = head →
      ∃ t', text c = some t' ∧ Layout (fileLine (init enabled s) now head t) 10 (fileLabel f) (stamp s.outputlevel c) t' := by
    intro now head t c h0 h1 h2 h3
    refine ⟨t, h1, ?_⟩
    have := fileLine_layout (init enabled s) now head t h0
    unfold stamp
    rw [h3, h2]
    simpa using this
  have hmsg : ∀ (g : FileId) (now t : String) (c : Call), text c = some t → timeOf c = now →
      ∃ old new : List String, (if enabled = true ∧ f = g ∧ (init enabled s).outputlevel.testBit (fileBit g) = true then
          (⟨true, ((init enabled s).file f).lines ++ [fileLine (init enabled s) now (fileLabel g) t]⟩ : File)
          else (init enabled s).file f).lines = old ++ new ∧
        (old = (s.file f).lines ∨ old = []) ∧
        ∀ line ∈ new, ∃ t, text c = some t ∧ Layout line 10 (fileLabel f) (stamp s.outputlevel c) t := by
    intro g now t c h1 h2
    by_cases h : enabled = true ∧ f = g ∧ (init enabled s).outputlevel.testBit (fileBit g) = true
    · rw [if_pos h]
      refine ⟨_, [_], rfl, hi s, ?_⟩
      intro line hline
      rw [List.mem_singleton] at hline
      subst hline
      obtain ⟨_, rfl, _⟩ := h
      exact lay _ _ _ _ (by cases f <;> decide) h1 h2 rfl
    · rw [if_neg h]
      exact ⟨_, [], (List.append_nil _).symm, hi s, by simp⟩
  cases c
  · exact ⟨_, [], (List.append_nil _).symm, hset _, by simp⟩
  · exact ⟨_, [], (List.append_nil _).symm, hset _, by simp⟩
  all_goals simp only [call]
  · rw [(message_spec enabled 2 .warnings rfl .warning _ _ _ _ _ _ (hopen _)).2.2]
    exact hmsg .warning _ _ _ rfl rfl
  · rw [(message_spec enabled 0 .userinfo rfl .log _ _ _ _ _ _ (hopen _)).2.2]
    exact hmsg .log _ _ _ rfl rfl
  · rw [(message_spec enabled 3 .logging rfl .log _ _ _ _ _ _ (hopen _)).2.2]
    exact hmsg .log _ _ _ rfl rfl
  · rw [(message_spec enabled 4 .logging_verbose rfl .log _ _ _ _ _ _ (hopen _)).2.2]
    exact hmsg .log _ _ _ rfl rfl
  · rw [(message_spec enabled 1 .errors rfl .error _ _ _ _ _ _ (hopen _)).2.2]
    exact hmsg .error _ _ _ rfl rfl
  · rw [(terminatingError_spec enabled _ _ _ (hopen _)).2.2]
    refine ⟨_, _, rfl, hi s, ?_⟩
    intro line hline
    split at hline
    · rename_i h
      rw [List.mem_singleton] at hline
      subst hline
      exact lay _ _ _ _ (by decide) rfl rfl (by rw [h.2.1]; rfl)
    · cases hline

/-- the first columns are 20 and 10 characters wide for every label there is -/
example : (call true (.warning "text" "Mon") (initial fun _ => [])).1.console =
    ["[    \x1b[33mwarning\x1b[0m][Mon] : \x1b[33mtext\x1b[0m\n"] := by decide +kernel

example : ((run true [.setLevel 64, .warning "text" "Mon"] (initial fun _ => [])).file .warning).lines = ["[   warning] : text\n"] := by
  decide +kernel

/-! ## C56: whole runs -/

/-- a call on a file that is not open -/
theorem call_closed (enabled : Bool) (c : Call) (s : State) (f : FileId) (ho : (s.file f).isOpen = false)
    (hl : s.outputlevel.testBit (fileBit f) = false) :
    (call enabled c s).1.file f = if enabled = true ∧ (newLevel c).any (fun l => l.testBit (fileBit f)) = true then ⟨true, []⟩ else s.file f := by
  have hopen : ∀ f : FileId, (init enabled s).outputlevel.testBit (fileBit f) = true → enabled = true →
      ((init enabled s).file f).isOpen = true := fun f h he => init_open he (by simpa using h)
  have hi : (init enabled s).file f = s.file f := by
    rw [init_file, if_neg (by simp [hl])]
  have hset : ∀ n, (init enabled { (init enabled s) with outputlevel := n }).file f =
      if enabled = true ∧ n.testBit (fileBit f) = true then ⟨true, []⟩ else s.file f := by
    intro n
    rw [init_file]
    simp only [hi, ho, and_true]
  cases c
  · exact (hset _).trans (by simp only [newLevel, Option.any_some]; congr)
  · exact (hset _).trans (by simp only [newLevel, Option.any_some]; congr)
  all_goals simp only [call, newLevel, Option.any_none, Bool.false_eq_true, and_false, if_false]
  · rw [(message_spec enabled 2 .warnings rfl .warning _ _ _ _ _ _ (hopen _)).2.2, if_neg, hi]
    rintro ⟨_, rfl, h⟩; rw [init_level, hl] at h; cases h
  · rw [(message_spec enabled 0 .userinfo rfl .log _ _ _ _ _ _ (hopen _)).2.2, if_neg, hi]
    rintro ⟨_, rfl, h⟩; rw [init_level, hl] at h; cases h
  · rw [(message_spec enabled 3 .logging rfl .log _ _ _ _ _ _ (hopen _)).2.2, if_neg, hi]
    rintro ⟨_, rfl, h⟩; rw [init_level, hl] at h; cases h
  · rw [(message_spec enabled 4 .logging_verbose rfl .log _ _ _ _ _ _ (hopen _)).2.2, if_neg, hi]
    rintro ⟨_, rfl, h⟩; rw [init_level, hl] at h; cases h
  · rw [(message_spec enabled 1 .errors rfl .error _ _ _ _ _ _ (hopen _)).2.2, if_neg, hi]
    rintro ⟨_, rfl, h⟩; rw [init_level, hl] at h; cases h
  · rw [(terminatingError_spec enabled _ _ _ (hopen _)).2.2]
    simp [init_level, hl, hi]

/-- C56, the part that holds, for whole runs. A run that never enables a file leaves the file of an earlier run as it is. A run that
enables it at some point replaces its contents by the messages admitted in this run, in their order. Missing: histories with a
`TerminatingError` that is raised while the file is enabled; for those see `C56_since_last`. -/
theorem C56_run_partial (enabled : Bool) (disk : FileId → List String) (h : List Call) (f : FileId)
    (hh : raisedWhileEnabled f 39 h = false) :
    if enabled && enables f h then
      List.Forall₂ Shows ((run enabled h (initial disk)).file f).lines (fileTexts enabled f 39 h)
    else ((run enabled h (initial disk)).file f).lines = disk f := by
  have gen : ∀ (h : List Call) (s : State), raisedWhileEnabled f s.outputlevel h = false → (s.file f).isOpen = false →
      s.outputlevel.testBit (fileBit f) = false →
      if enabled && enables f h then List.Forall₂ Shows ((run enabled h s).file f).lines (fileTexts enabled f s.outputlevel h)
      else ((run enabled h s).file f).lines = (s.file f).lines := by
    intro h
    induction h with
    | nil => intro s _ _ _; simp [enables, run]
    | cons c cs ih =>
      intro s hh ho hl
      unfold raisedWhileEnabled at hh
      rw [Bool.or_eq_false_iff] at hh
      have e := call_closed enabled c s f ho hl
      have lev := C55_level enabled c s
      have hcs : raisedWhileEnabled f (call enabled c s).1.outputlevel cs = false := by rw [lev]; exact hh.2
      have wf : writesFile enabled s.outputlevel f c = false := by simp [writesFile, hl]
      unfold run fileTexts
      rw [wf, ← lev]
      simp only [Bool.false_eq_true, if_false, List.nil_append]
      have en : enables f (c :: cs) = ((newLevel c).any (fun l => l.testBit (fileBit f)) || enables f cs) := by simp [enables]
      rw [en]
      by_cases h1 : enabled = true ∧ (newLevel c).any (fun l => l.testBit (fileBit f)) = true
      · rw [if_pos h1] at e
        obtain ⟨new, k1, k2⟩ := C56_kept_partial enabled cs (call enabled c s).1 f (by rw [e]) hcs
        rw [if_pos (by rw [h1.1, h1.2]; rfl), k1, e]
        exact k2
      · rw [if_neg h1] at e
        by_cases he : enabled = true
        · have h2 : (newLevel c).any (fun l => l.testBit (fileBit f)) = false := by
            cases h3 : (newLevel c).any (fun l => l.testBit (fileBit f))
            · rfl
            · exact absurd ⟨he, h3⟩ h1
          have := ih (call enabled c s).1 hcs (by rw [e]; exact ho) (by
            rw [lev]
            cases h3 : newLevel c with
            | none => exact hl
            | some l => rw [h3] at h2; simpa using h2)
          rw [h2, Bool.false_or]
          rw [e] at this
          exact this
        · have he' : enabled = false := by simpa using he
          subst he'
          simp only [Bool.false_and, Bool.false_eq_true, if_false]
          have run_off : ∀ (l : List Call) (s : State), ((run false l s).file f).lines = (s.file f).lines := by
            intro l
            induction l with
            | nil => intro s; rfl
            | cons d ds ihd =>
              intro s
              have e : (call false d s).1.file f = s.file f := by
                cases d <;> simp [call, init, message, terminatingError, close]
                split <;> rfl
              unfold run
              rw [ihd, e]
          rw [run_off, e]
  have h39 : (39 : ℕ).testBit (fileBit f) = false := by cases f <;> decide
  exact gen h (initial disk) hh rfl h39

/-- a run that enables the warning file after the first warning, and raises an error after disabling it -/
example : ∃ h : List Call, raisedWhileEnabled .warning 39 h = false ∧ enables .warning h = true ∧ enables .error h = false ∧
    fileTexts true .warning 39 h = ["b"] :=
  ⟨[.warning "a" "", .setLevel 64, .warning "b" "", .setLevel 0, .warning "c" "", .terminating "d" ""], by decide, by decide, by decide,
    by decide⟩

theorem run_append (enabled : Bool) (h h' : List Call) (s : State) : run enabled (h ++ h') s = run enabled h' (run enabled h s) := by
  induction h generalizing s with
  | nil => rfl
  | cons c cs ih => exact ih _

theorem run_level (enabled : Bool) (h : List Call) (s : State) : (run enabled h s).outputlevel = levelAfter s.outputlevel h := by
  induction h generalizing s with
  | nil => rfl
  | cons c cs ih => unfold run; rw [ih, C55_level]; rfl

/-- C56 fails, for whole histories. Let `h` be the calls after the last `TerminatingError` that was raised while the file was enabled.
If there are any, the file contains the messages of `h` and nothing of what was written before. -/
theorem C56_since_last (disk : FileId → List String) (before h : List Call) (t now : String) (f : FileId)
    (hen : (levelAfter 39 before).testBit (fileBit f) = true) (hlast : raisedWhileEnabled f (levelAfter 39 before) h = false)
    (hne : h ≠ []) :
    List.Forall₂ Shows ((run true (before ++ .terminating t now :: h) (initial disk)).file f).lines
      (fileTexts true f (levelAfter 39 before) h) := by
  obtain ⟨c, cs, rfl⟩ := List.exists_cons_of_ne_nil hne
  have hlev : (run true before (initial disk)).outputlevel = levelAfter 39 before := run_level _ _ _
  have h1 := C56_fails_truncates t now c (run true before (initial disk)) f (by rw [hlev]; exact hen)
  rw [hlev] at h1
  unfold raisedWhileEnabled at hlast
  rw [Bool.or_eq_false_iff] at hlast
  have split : run true (before ++ .terminating t now :: c :: cs) (initial disk) =
      run true cs (run true [.terminating t now, c] (run true before (initial disk))) := by
    rw [← run_append, ← run_append]; simp
  rw [split]
  set s1 := (call true (.terminating t now) (run true before (initial disk))).1 with hs1
  have hl1 : s1.outputlevel = levelAfter 39 before := by rw [hs1, C55_level, hlev]; rfl
  have hopen : ((run true [.terminating t now, c] (run true before (initial disk))).file f).isOpen = true := by
    show ((call true c s1).1.file f).isOpen = true
    have e : call true c s1 = call true c (init true s1) := by
      unfold call
      rw [show init true (init true s1) = init true s1 from init_init true s1]
    rw [e]
    refine call_open true c _ f (init_open rfl (by rw [hl1]; exact hen)) ?_
    rw [init_level, hl1]
    exact hlast.1
  have hl2 : (run true [.terminating t now, c] (run true before (initial disk))).outputlevel =
      (newLevel c).getD (levelAfter 39 before) := by
    show (call true c s1).1.outputlevel = _
    rw [C55_level, hl1]
  obtain ⟨new, k1, k2⟩ := C56_kept_partial true cs _ f hopen (by rw [hl2]; exact hlast.2)
  rw [k1]
  unfold fileTexts
  rw [hl2] at k2
  exact List.rel_append h1 k2

/-- the first two errors are lost -/
example : ∃ before h : List Call, (levelAfter 39 before).testBit (fileBit .error) = true ∧
    raisedWhileEnabled .error (levelAfter 39 before) h = false ∧ h ≠ [] ∧
    fileTexts true .error 39 before = ["a"] ∧ fileTexts true .error (levelAfter 39 before) h = ["c"] :=
  ⟨[.setLevel 128, .error "a" ""], [.userInfo "b" "", .error "c" "", .setLevel 64, .terminating "d" ""], by decide, by decide, by decide,
    by decide, by decide⟩

end Bezman.Props
