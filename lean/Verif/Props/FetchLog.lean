import Verif.Model.FetchLog
import Mathlib.Data.List.Basic
import Mathlib.Tactic.Ring
/-!
C129: the program that fetches FES models logs in with the credentials that were given, fetches every
requested model, and its log tells what was fetched.
-/
namespace Verif.FetchLog
open Verif

/-! ## Specification -/

/-- A line of a log: the level, the name of the logger and the message. -/
def line (enc : String → List UInt8) (msg : String) : List UInt8 := [73, 78, 70, 79, 58] ++ enc msg ++ [10]

/-- The log of a model: the day, the model, and what is told while it is fetched. -/
def logOf (enc : String → List UInt8) (day model : String) (msgs : List String) : List UInt8 :=
  ((["AVISO FES Sync Log (" ++ day ++ ")", "\tMODEL: " ++ model] ++ msgs).map (line enc)).flatten

/-- The models that the program offers: four that come as archives, one that comes as a list of files. -/
def archives : List String := ["FES1999", "FES2004", "FES2012", "FES2014"]

/-- What is told while a model is fetched. -/
def told (tar list : Provider) (m : String) : List String := if m ∈ archives then (tar m).1 else (list m).1

/-- How fetching a model ends. -/
def outcome (tar list : Provider) (m : String) : Option PyErr := if m ∈ archives then (tar m).2 else (list m).2

/-! ## Credentials -/

/-- C129, credentials: without a file of credentials, the name and the password that were given are used, and
what is missing is asked for; a password without a name is not used.  Missing: a file of credentials that
exists, see `C129_override_false` and `C129_entry_false`. -/
theorem C129_given_partial (a : Args) (asked : String) (secret : String → String) (hn : a.netrc = none) :
    (∀ u p, a.user = some u → u ≠ "" → a.password = some p → p ≠ "" →
      credentials a asked secret = .ok (some u, some p)) ∧
    (∀ u, a.user = some u → u ≠ "" → (a.password = none ∨ a.password = some "") →
      credentials a asked secret = .ok (some u, some (secret u))) ∧
    ((a.user = none ∨ a.user = some "") → credentials a asked secret = .ok (some asked, some (secret asked))) := by
  refine ⟨fun u p hu h0 hp h1 => ?_, fun u hu h0 hp => ?_, fun hu => ?_⟩
  · simp [credentials, hn, hu, hp, given, h0, h1]
  · rcases hp with hp | hp <;> simp [credentials, hn, hu, hp, given, h0]
  · rcases hu with hu | hu <;> simp [credentials, hn, hu, given]

/-- C129, credentials: those of the file are used if it has one entry for the server. -/
theorem C129_netrc (a : Args) (asked : String) (secret : String → String) (l : List Entry) (e : Entry)
    (hn : a.netrc = some l) (he : e ∈ l) (hh : e.machine = "ftp-access.aviso.altimetry.fr")
    (one : ∀ e' ∈ l, e'.machine = "ftp-access.aviso.altimetry.fr" → e' = e) :
    credentials a asked secret = .ok (some e.login, some e.password) := by
  have f : l.reverse.find? (·.machine == host) = some e := by
    cases h : l.reverse.find? (·.machine == host) with
    | none =>
      rw [List.find?_eq_none] at h
      exact absurd hh (by simpa [host] using h e (by simpa using he))
    | some e' =>
      have m := List.mem_of_find?_eq_some h
      have q := List.find?_some h
      rw [one e' (by simpa using m) (by simpa [host] using q)]
  have au : authenticators l host = some e := by rw [authenticators, f]
  unfold credentials
  rw [hn]
  cases given a.user <;> simp only [au]

/-- Refuted: a name and a password given on the command line are not used if there is a file of credentials
with another name for the server. -/
theorem C129_override_false (a : Args) (asked : String) (secret : String → String) (e : Entry)
    (hn : a.netrc = some [e]) (hh : e.machine = "ftp-access.aviso.altimetry.fr") (u p : String)
    (_ : a.user = some u) (_ : a.password = some p) (hne : e.login ≠ u) :
    credentials a asked secret ≠ .ok (some u, some p) := by
  rw [C129_netrc a asked secret [e] e hn (by simp) hh (by simp)]
  intro h
  simp only [Except.ok.injEq, Prod.mk.injEq, Option.some.injEq] at h
  exact hne h.1

/-- Refuted: with a file of credentials that has other servers only, the program ends with a TypeError,
whatever name and password are given, before it connects. -/
theorem C129_entry_false (enc : String → List UInt8) (tar list : Provider) (accepts : Credentials → Bool)
    (a : Args) (asked : String) (secret : String → String) (days : List String) (w : World) (l : List Entry)
    (hn : a.netrc = some l)
    (ho : ∀ e ∈ l, e.machine ≠ "ftp-access.aviso.altimetry.fr" ∧ e.machine ≠ "default") :
    run enc tar list accepts a asked secret days w = (w, some .typeError) := by
  have f1 : l.reverse.find? (·.machine == host) = none := by
    rw [List.find?_eq_none]
    intro e he
    simpa [host] using (ho e (by simpa using he)).1
  have f2 : l.reverse.find? (·.machine == "default") = none := by
    rw [List.find?_eq_none]
    intro e he
    simpa using (ho e (by simpa using he)).2
  have c : credentials a asked secret = .error .typeError := by
    have au : authenticators l host = none := by rw [authenticators, f1]; exact f2
    unfold credentials
    rw [hn]
    cases given a.user <;> simp only [au]
  rw [run, c]

/-! ## The logger -/

theorem writeAt_end {c : List UInt8} {pos : ℕ} (h : c.length ≤ pos) (b : List UInt8) :
    writeAt c pos b = c ++ List.replicate (pos - c.length) 0 ++ b := by
  unfold writeAt
  rw [List.take_of_length_le (by simp; omega), List.drop_eq_nil_of_le (by omega), List.append_nil]

/-- What messages change: the file of the handler, and nothing else. -/
def logged (w : Console) (n : String) (c : List UInt8) (pos : ℕ) : Console :=
  { w with disk := fun p => if p = n then some c else w.disk p, handler := some (.file n pos) }

theorem logged_logged (w : Console) (n : String) (c c' : List UInt8) (pos pos' : ℕ) :
    logged (logged w n c pos) n c' pos' = logged w n c' pos' := by
  unfold logged
  congr 1
  funext p
  by_cases h : p = n <;> simp [h]

theorem info_logged (enc : String → List UInt8) (w : Console) (n : String) (c : List UInt8) (pos : ℕ)
    (h : c.length ≤ pos) (msg : String) :
    info enc (logged w n c pos) msg
      = logged w n (c ++ List.replicate (pos - c.length) 0 ++ line enc msg) (pos + (line enc msg).length) := by
  have e : info enc (logged w n c pos) msg
      = logged (logged w n c pos) n (writeAt c pos (record enc msg)) (pos + (record enc msg).length) := by
    simp [info, logged]
  rw [e, logged_logged, writeAt_end h]
  rfl

theorem fold_logged (enc : String → List UInt8) (w : Console) (n : String) : ∀ (msgs : List String) (c : List UInt8),
    msgs.foldl (info enc) (logged w n c c.length)
      = logged w n (c ++ (msgs.map (line enc)).flatten) (c.length + ((msgs.map (line enc)).flatten).length)
  | [], c => by simp
  | m :: ms, c => by
    have e := info_logged enc w n c c.length le_rfl m
    rw [Nat.sub_self, List.replicate_zero, List.append_nil, ← List.length_append] at e
    rw [List.foldl_cons, e, fold_logged enc w n ms (c ++ line enc m)]
    congr 1
    · simp
    · simp; ring

/-- Messages to a file that is shorter than the position of the handler. -/
theorem fold_padded (enc : String → List UInt8) (w : Console) (n : String) (m : String) (ms : List String)
    (c : List UInt8) (pos : ℕ) (h : c.length ≤ pos) :
    (m :: ms).foldl (info enc) (logged w n c pos)
      = logged w n (c ++ List.replicate (pos - c.length) 0 ++ ((m :: ms).map (line enc)).flatten)
          (pos + (((m :: ms).map (line enc)).flatten).length) := by
  have e := info_logged enc w n c pos h m
  have l : pos + (line enc m).length
      = (c ++ List.replicate (pos - c.length) 0 ++ line enc m).length := by simp; omega
  rw [l] at e
  rw [List.foldl_cons, e, fold_logged]
  congr 1
  · simp
  · simp; omega

/-- The lines with which a log begins. -/
def heading (day m : String) : List String := ["AVISO FES Sync Log (" ++ day ++ ")", "\tMODEL: " ++ m]

theorem logOf_eq (enc : String → List UInt8) (day m : String) (msgs : List String) :
    logOf enc day m msgs = ((heading day m ++ msgs).map (line enc)).flatten := rfl

/-- A session, whatever it logs. -/
theorem session_eq (enc : String → List UInt8) (tar list : Provider) (c : Credentials) (log : Bool) (w : World)
    (day m : String) (hm : m ∈ archives ∨ m = "FES2022") :
    session enc tar list c log w day m
      = (⟨(told tar list m).foldl (info enc) (begin enc log day m w.console), w.logins ++ [(c, m)],
          w.tars ++ (if m ∈ archives then [m] else []), w.lists ++ (if m ∈ archives then [] else [m])⟩,
        outcome tar list m) := by
  unfold session told outcome
  by_cases h : m ∈ archives
  · rw [if_pos (show m ∈ ["FES1999", "FES2004", "FES2012", "FES2014"] from h), if_pos h, if_pos h, if_pos h,
      if_pos h, List.append_nil]
  · rw [if_neg (show m ∉ ["FES1999", "FES2004", "FES2012", "FES2014"] from h), if_pos (hm.resolve_left h),
      if_neg h, if_neg h, if_neg h, if_neg h, List.append_nil]

/-- Messages of a session to a file that is just opened. -/
theorem fold_begin (enc : String → List UInt8) (msgs : List String) (day m : String) (w : Console) :
    msgs.foldl (info enc) (begin enc true day m w)
      = (heading day m ++ msgs).foldl (info enc)
          (buildLogger (openNew w (logName day)) (.file (logName day) 0)) := by
  rw [List.foldl_append]
  rfl

/-- The first session of a process. -/
theorem first (enc : String → List UInt8) (msgs : List String) (day m : String) (w : Console)
    (hw : w.handler = none) :
    msgs.foldl (info enc) (begin enc true day m w)
      = logged w (logName day) (logOf enc day m msgs) (logOf enc day m msgs).length := by
  have e : buildLogger (openNew w (logName day)) (.file (logName day) 0)
      = logged w (logName day) [] ([] : List UInt8).length := by
    simp [buildLogger, openNew, hw, logged]
  rw [fold_begin, e, fold_logged, logOf_eq]
  simp

/-- A later session on the same day. -/
theorem again (enc : String → List UInt8) (msgs : List String) (day m : String) (w : Console) (c : List UInt8)
    (pos : ℕ) :
    msgs.foldl (info enc) (begin enc true day m (logged w (logName day) c pos))
      = logged w (logName day) (List.replicate pos 0 ++ logOf enc day m msgs)
          (pos + (logOf enc day m msgs).length) := by
  have e : buildLogger (openNew (logged w (logName day) c pos) (logName day)) (.file (logName day) 0)
      = logged w (logName day) [] pos := by
    simp only [buildLogger, openNew, logged]
    congr 1
    funext p
    by_cases h : p = logName day <;> simp [h]
  have p := fold_padded enc w (logName day) ("AVISO FES Sync Log (" ++ day ++ ")")
    (("\tMODEL: " ++ m) :: msgs) [] pos (by simp)
  rw [fold_begin, e, logOf_eq]
  simpa [heading] using p

/-- The bytes of the logs of models fetched on a day. -/
def total (enc : String → List UInt8) (tar list : Provider) (day : String) (ms : List String) : ℕ :=
  (ms.map fun m => (logOf enc day m (told tar list m)).length).sum

/-! ## Results -/

/-- The models a user can ask for. -/
def Offered (m : String) : Prop := m ∈ archives ∨ m = "FES2022"

/-- C129, models: if nothing fails, the program logs in once for every requested model, in order, with the
same credentials, and fetches each in its way. -/
theorem C129_every_model (enc : String → List UInt8) (tar list : Provider) (c : Credentials) (log : Bool) :
    ∀ (asks : List (String × String)) (w : World), (∀ q ∈ asks, Offered q.2) →
      (∀ q ∈ asks, outcome tar list q.2 = none) →
      ∃ w', sessions enc tar list c log w asks = (w', none) ∧
        w'.logins = w.logins ++ asks.map (fun q => (c, q.2)) ∧
        w'.tars = w.tars ++ (asks.map Prod.snd).filter (· ∈ archives) ∧
        w'.lists = w.lists ++ (asks.map Prod.snd).filter (· ∉ archives)
  | [], w, _, _ => ⟨w, rfl, by simp, by simp, by simp⟩
  | (day, m) :: asks, w, ho, hn => by
    have e := session_eq enc tar list c log w day m (ho (day, m) (by simp))
    rw [hn (day, m) (by simp)] at e
    obtain ⟨w', r, l1, l2, l3⟩ := C129_every_model enc tar list c log asks
      ⟨(told tar list m).foldl (info enc) (begin enc log day m w.console), w.logins ++ [(c, m)],
          w.tars ++ (if m ∈ archives then [m] else []), w.lists ++ (if m ∈ archives then [] else [m])⟩
      (fun q hq => ho q (by simp [hq])) (fun q hq => hn q (by simp [hq]))
    refine ⟨w', by rw [sessions, e]; exact r, by rw [l1]; simp, ?_, ?_⟩
    · rw [l2]
      by_cases h : m ∈ archives <;> simp [h]
    · rw [l3]
      by_cases h : m ∈ archives <;> simp [h]

/-- C129, failures: a model that cannot be fetched ends the program with its exception; the models before it
were fetched, those after it are not tried. -/
theorem C129_stops (enc : String → List UInt8) (tar list : Provider) (c : Credentials) (log : Bool)
    (asks : List (String × String)) (day m : String) (rest : List (String × String)) (w : World)
    (ho : ∀ q ∈ asks, Offered q.2) (hn : ∀ q ∈ asks, outcome tar list q.2 = none) (hm : Offered m) (e : PyErr)
    (he : outcome tar list m = some e) :
    ∃ w', sessions enc tar list c log w (asks ++ (day, m) :: rest) = (w', some e) ∧
      w'.logins = w.logins ++ (asks.map Prod.snd ++ [m]).map (fun m => (c, m)) := by
  induction asks generalizing w with
  | nil =>
    have s := session_eq enc tar list c log w day m hm
    rw [he] at s
    exact ⟨_, by rw [List.nil_append, sessions, s], by simp⟩
  | cons q asks ih =>
    obtain ⟨d, n⟩ := q
    have s := session_eq enc tar list c log w d n (ho (d, n) (by simp))
    rw [hn (d, n) (by simp)] at s
    obtain ⟨w', r, l⟩ := ih ⟨(told tar list n).foldl (info enc) (begin enc log d n w.console),
        w.logins ++ [(c, n)], w.tars ++ (if n ∈ archives then [n] else []),
        w.lists ++ (if n ∈ archives then [] else [n])⟩
      (fun q hq => ho q (by simp [hq])) (fun q hq => hn q (by simp [hq]))
    exact ⟨w', by rw [List.cons_append, sessions, s]; exact r, by rw [l]; simp⟩

/-- C129, log, for one model: the log file of the day has the lines of this model and nothing else, whether
or not fetching it fails, and no other file is touched by the log. -/
theorem C129_log_partial (enc : String → List UInt8) (tar list : Provider) (c : Credentials) (w : World)
    (hw : w.console.handler = none) (day m : String) (hm : Offered m) :
    ∃ w', sessions enc tar list c true w [(day, m)] = (w', outcome tar list m) ∧
      w'.console.disk (logName day) = some (logOf enc day m (told tar list m)) ∧
      ∀ p, p ≠ logName day → w'.console.disk p = w.console.disk p := by
  have s := session_eq enc tar list c true w day m hm
  rw [first enc _ day m w.console hw] at s
  cases o : outcome tar list m with
  | none =>
    rw [o] at s
    exact ⟨_, by rw [sessions, s]; rfl, by simp [logged], fun p hp => by simp [logged, hp]⟩
  | some e =>
    rw [o] at s
    exact ⟨_, by rw [sessions, s], by simp [logged], fun p hp => by simp [logged, hp]⟩

theorem later (enc : String → List UInt8) (tar list : Provider) (c : Credentials) (day : String) :
    ∀ (ms : List String) (m : String) (w0 : Console) (w : World) (b : List UInt8) (pos : ℕ),
      w.console = logged w0 (logName day) b pos → (∀ n ∈ ms ++ [m], Offered n) →
      (∀ n ∈ ms ++ [m], outcome tar list n = none) →
      (sessions enc tar list c true w ((ms ++ [m]).map fun n => (day, n))).1.console
        = logged w0 (logName day)
            (List.replicate (pos + total enc tar list day ms) 0 ++ logOf enc day m (told tar list m))
            (pos + total enc tar list day ms + (logOf enc day m (told tar list m)).length)
  | [], m, w0, w, b, pos, hw, ho, hn => by
    have s := session_eq enc tar list c true w day m (ho m (by simp))
    rw [hn m (by simp), hw, again] at s
    rw [List.nil_append, List.map_singleton, sessions, s]
    simp [sessions, total]
  | n :: ms, m, w0, w, b, pos, hw, ho, hn => by
    have s := session_eq enc tar list c true w day n (ho n (by simp))
    rw [hn n (by simp), hw, again] at s
    rw [List.cons_append, List.map_cons, sessions, s]
    dsimp only
    rw [later enc tar list c day ms m w0 _ _ (pos + (logOf enc day n (told tar list n)).length) rfl
      (fun k hk => ho k (by simp at hk ⊢; tauto)) (fun k hk => hn k (by simp at hk ⊢; tauto))]
    simp only [total, List.map_cons, List.sum_cons]
    rw [Nat.add_assoc pos]

/-- The log of any number of models fetched on a day: the lines of the last, after as many zeros as the lines
of the models before it have bytes. -/
theorem C129_log_zeros (enc : String → List UInt8) (tar list : Provider) (c : Credentials) (w : World)
    (hw : w.console.handler = none) (day : String) (ms : List String) (m : String)
    (ho : ∀ n ∈ ms ++ [m], Offered n) (hn : ∀ n ∈ ms ++ [m], outcome tar list n = none) :
    (sessions enc tar list c true w ((ms ++ [m]).map fun n => (day, n))).1.console.disk (logName day)
      = some (List.replicate (total enc tar list day ms) 0 ++ logOf enc day m (told tar list m)) := by
  cases ms with
  | nil =>
    have s := session_eq enc tar list c true w day m (ho m (by simp))
    rw [hn m (by simp), first enc _ day m w.console hw] at s
    rw [List.nil_append, List.map_singleton, sessions, s]
    simp [sessions, total, logged]
  | cons n ms =>
    have s := session_eq enc tar list c true w day n (ho n (by simp))
    rw [hn n (by simp), first enc _ day n w.console hw] at s
    rw [List.cons_append, List.map_cons, sessions, s]
    dsimp only
    rw [later enc tar list c day ms m w.console _ _ _ rfl
      (fun k hk => ho k (by simp at hk ⊢; tauto)) (fun k hk => hn k (by simp at hk ⊢; tauto))]
    simp [logged, total]

/-- Refuted: after two models the log is not the log of both; the lines of the first are gone. -/
theorem C129_log_false (enc : String → List UInt8) (tar list : Provider) (c : Credentials) (w : World)
    (hw : w.console.handler = none) (day m n : String) (hm : Offered m) (hn : Offered n)
    (gm : outcome tar list m = none) (gn : outcome tar list n = none) (rest : List UInt8) :
    (sessions enc tar list c true w [(day, m), (day, n)]).1.console.disk (logName day)
      ≠ some (logOf enc day m (told tar list m) ++ rest) := by
  have z := C129_log_zeros enc tar list c w hw day [m] n (by simp [hm, hn]) (by simp [gm, gn])
  have e : ([m] ++ [n]).map (fun k => (day, k)) = [(day, m), (day, n)] := rfl
  rw [e] at z
  rw [z]
  intro h
  have h := Option.some.inj h
  have p : 0 < total enc tar list day [m] := by simp [total, logOf, line]
  obtain ⟨k, hk⟩ := Nat.exists_eq_succ_of_ne_zero (by omega : total enc tar list day [m] ≠ 0)
  rw [hk, List.replicate_succ] at h
  simp [logOf, line] at h

/-- Refuted: if a model is reached on another day, its log file is empty; its lines are at the end of the log
of the first day. -/
theorem C129_midnight_false (enc : String → List UInt8) (tar list : Provider) (c : Credentials) (w : World)
    (hw : w.console.handler = none) (day next m n : String) (hd : logName next ≠ logName day)
    (hm : Offered m) (hn : Offered n) (gm : outcome tar list m = none) (gn : outcome tar list n = none) :
    (sessions enc tar list c true w [(day, m), (next, n)]).1.console.disk (logName next) = some [] ∧
    (sessions enc tar list c true w [(day, m), (next, n)]).1.console.disk (logName day)
      = some (logOf enc day m (told tar list m) ++ logOf enc next n (told tar list n)) := by
  have s := session_eq enc tar list c true w day m hm
  rw [gm, first enc _ day m w.console hw] at s
  have s2 := session_eq enc tar list c true
    ⟨logged w.console (logName day) (logOf enc day m (told tar list m)) (logOf enc day m (told tar list m)).length,
      w.logins ++ [(c, m)], w.tars ++ (if m ∈ archives then [m] else []),
      w.lists ++ (if m ∈ archives then [] else [m])⟩ next n hn
  have e : buildLogger (openNew (logged w.console (logName day) (logOf enc day m (told tar list m))
        (logOf enc day m (told tar list m)).length) (logName next)) (.file (logName next) 0)
      = logged { w.console with disk := fun p => if p = logName next then some [] else w.console.disk p }
          (logName day) (logOf enc day m (told tar list m)) (logOf enc day m (told tar list m)).length := by
    simp only [buildLogger, openNew, logged]
    congr 1
    funext p
    by_cases h : p = logName next
    · simp [h, hd]
    · by_cases h' : p = logName day <;> simp [h, h', hd.symm]
  rw [gn, fold_begin, e, fold_logged, ← logOf_eq] at s2
  rw [sessions, s]
  dsimp only
  rw [sessions, s2]
  simp [sessions, logged, hd]

theorem fold_printed (enc : String → List UInt8) : ∀ (msgs : List String) (w : Console),
    w.handler = some .terminal →
      msgs.foldl (info enc) w = { w with printed := w.printed ++ msgs }
  | [], w, _ => by simp
  | m :: ms, w, h => by
    have e : info enc w m = { w with printed := w.printed ++ [m] } := by rw [info, h]
    rw [List.foldl_cons, e, fold_printed enc ms { w with printed := w.printed ++ [m] } h]
    simp

theorem printed_terminal (enc : String → List UInt8) (tar list : Provider) (c : Credentials) :
    ∀ (asks : List (String × String)) (w : World), (∀ q ∈ asks, Offered q.2) →
      (∀ q ∈ asks, outcome tar list q.2 = none) → w.console.handler = some .terminal →
      (sessions enc tar list c false w asks).1.console
        = { w.console with printed := w.console.printed ++ (asks.map fun q => told tar list q.2).flatten }
  | [], w, _, _, _ => by simp [sessions]
  | (day, m) :: asks, w, ho, hn, hw => by
    have s := session_eq enc tar list c false w day m (ho (day, m) (by simp))
    have b : begin enc false day m w.console = w.console := by simp [begin, buildLogger, hw]
    rw [hn (day, m) (by simp), b, fold_printed enc _ _ hw] at s
    rw [sessions, s]
    dsimp only
    have t := fun v : World => printed_terminal enc tar list c asks v (fun q hq => ho q (by simp [hq]))
      (fun q hq => hn q (by simp [hq]))
    rw [t _ ?_]
    · simp
    · exact hw

/-- C129, without a log file: the messages of every model are printed, in order, and no file is touched. -/
theorem C129_printed (enc : String → List UInt8) (tar list : Provider) (c : Credentials)
    (asks : List (String × String)) (w : World) (ho : ∀ q ∈ asks, Offered q.2)
    (hn : ∀ q ∈ asks, outcome tar list q.2 = none) (hw : w.console.handler = none) :
    (sessions enc tar list c false w asks).1.console.printed
        = w.console.printed ++ (asks.map fun q => told tar list q.2).flatten ∧
      (sessions enc tar list c false w asks).1.console.disk = w.console.disk := by
  cases asks with
  | nil => simp [sessions]
  | cons q asks =>
    obtain ⟨day, m⟩ := q
    have s := session_eq enc tar list c false w day m (ho (day, m) (by simp))
    have b : begin enc false day m w.console = { w.console with handler := some .terminal } := by
      simp [begin, buildLogger, hw]
    rw [hn (day, m) (by simp), b, fold_printed enc _ _ rfl] at s
    rw [sessions, s]
    dsimp only
    have t := fun v : World => printed_terminal enc tar list c asks v (fun q hq => ho q (by simp [hq]))
      (fun q hq => hn q (by simp [hq]))
    rw [t _ ?_]
    · simp
    · rfl

/-- C129, the program: with a name and a password on the command line and no file of credentials, every
requested model is fetched with them if the server accepts them; if it does not, the program ends and
nothing is fetched or written. -/
theorem C129_program_partial (enc : String → List UInt8) (tar list : Provider) (accepts : Credentials → Bool)
    (a : Args) (asked : String) (secret : String → String) (days : List String) (w : World)
    (hl : days.length = a.tide.length) (hn : a.netrc = none) (u p : String) (hu : a.user = some u) (u0 : u ≠ "")
    (hp : a.password = some p) (p0 : p ≠ "") (ho : ∀ m ∈ a.tide, Offered m) :
    (accepts (some u, some p) = true → (∀ m ∈ a.tide, outcome tar list m = none) →
      ∃ w', run enc tar list accepts a asked secret days w = (w', none) ∧
        w'.logins = w.logins ++ a.tide.map (fun m => ((some u, some p), m)) ∧
        w'.tars = w.tars ++ a.tide.filter (· ∈ archives) ∧
        w'.lists = w.lists ++ a.tide.filter (· ∉ archives)) ∧
    (accepts (some u, some p) = false →
      run enc tar list accepts a asked secret days w = (w, some .exception)) := by
  have c := (C129_given_partial a asked secret hn).1 u p hu u0 hp p0
  have z : (days.zip a.tide).map Prod.snd = a.tide := List.map_snd_zip (by omega)
  refine ⟨fun ha hf => ?_, fun ha => by rw [run, c]; simp [ha]⟩
  have mem : ∀ q ∈ days.zip a.tide, q.2 ∈ a.tide := fun q hq => (List.of_mem_zip hq).2
  obtain ⟨w', r, l1, l2, l3⟩ := C129_every_model enc tar list (some u, some p) a.log (days.zip a.tide) w
    (fun q hq => ho _ (mem q hq)) (fun q hq => hf _ (mem q hq))
  refine ⟨w', by rw [run, c]; simp only [ha, if_true]; exact r, ?_, by rw [l2, z], by rw [l3, z]⟩
  rw [l1]
  conv_rhs => rw [← z]
  rw [List.map_map]
  rfl

/-! ## Examples -/

/-- Models that can be fetched, with messages. -/
def works : Provider := fun m => ([m ++ ".tar.gz"], none)

/-- The hypotheses of the theorems hold for these. -/
example : (∀ q ∈ [("2026-11-16", "FES2014"), ("2026-11-16", "FES2022")], Offered q.2) ∧
    (∀ q ∈ [("2026-11-16", "FES2014"), ("2026-11-16", "FES2022")], outcome works works q.2 = none) ∧
    logName "2026-11-17" ≠ logName "2026-11-16" := by
  refine ⟨?_, ?_, by decide +kernel⟩
  · intro q hq
    simp only [List.mem_cons, List.not_mem_nil, or_false] at hq
    rcases hq with rfl | rfl
    · exact Or.inl (by decide +kernel)
    · exact Or.inr rfl
  · intro q _
    unfold outcome works
    split <;> rfl

/-- A file of credentials with an entry for the server, and one without. -/
example : ∃ e : Entry, e.machine = "ftp-access.aviso.altimetry.fr" ∧ e.login ≠ "me" ∧
    ∃ o : Entry, o.machine ≠ "ftp-access.aviso.altimetry.fr" ∧ o.machine ≠ "default" :=
  ⟨⟨"ftp-access.aviso.altimetry.fr", "group", "", "x"⟩, rfl, by decide +kernel,
    ⟨"urs.earthdata.nasa.gov", "me", "", "y"⟩, by decide +kernel, by decide +kernel⟩

/-- A model that fails is in the scope of `C129_stops`. -/
example : ∃ p : Provider, outcome p works "FES2014" = some .fileNotFound ∧ outcome p works "FES2022" = none :=
  ⟨fun _ => ([], some .fileNotFound), by decide +kernel, by decide +kernel⟩

end Verif.FetchLog
