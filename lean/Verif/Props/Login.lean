import Verif.Model.Login
/-!
C126: the credentials of a user for NASA Earthdata: which are used, how often they are tried, and to
which servers they are sent.
-/
namespace Verif.Login
open Verif

/-! ### Which credentials are used -/

/-- The first of several texts that is there and not empty. -/
def firstOf (l : List (Option String)) (asked : String) : String :=
  ((l.filterMap id).find? (· ≠ "")).getD asked

theorem loop_head (accept : Nat → Cred → Bool) (askUser askPassword : Nat → String) (prompt : Bool) (n k : Nat)
    (c : Cred) : (loop accept askUser askPassword prompt (n + 1) k c).1.head? = some c := by
  rw [loop]
  split
  · rfl
  · split <;> rfl

theorem head_start (g : Given) (accept : Nat → Cred → Bool) (askUser askPassword : Nat → String)
    (hr : g.retries ≠ some 0) :
    (attemptLogin g accept askUser askPassword).1.head? = some (start g askUser askPassword).1 := by
  obtain ⟨m, hm⟩ : ∃ m, g.retries.getD 5 = m + 1 := by
    cases h : g.retries with
    | none => exact ⟨4, rfl⟩
    | some r =>
      cases r with
      | zero => exact absurd h hr
      | succ m => exact ⟨m, rfl⟩
  unfold attemptLogin
  rw [hm]
  exact loop_head ..

/-- **C126 (partial).** Without an entry in `.netrc`: the first credentials that are tried are, for the name and
for the password each, the argument if it is given, else the environment variable if it is set, else
what the user is asked for.  Arguments are texts (`C126_token_false`) and not empty, as is the
environment. -/
theorem C126_source_partial (username password : Option String) (g : Given) (accept : Nat → Cred → Bool)
    (askUser askPassword : Nat → String)
    (hu : g.username = username.map some) (hp : g.password = password.map some) (hn : g.netrc = none)
    (eu : username ≠ some "") (ep : password ≠ some "") (hr : g.retries ≠ some 0) :
    (attemptLogin g accept askUser askPassword).1.head? =
      some (firstOf [username, g.envUser] (askUser 0), firstOf [password, g.envPassword] (askPassword 0)) := by
  have h1 : (if empty (g.username.getD g.envUser) then askUser 0 else (g.username.getD g.envUser).getD "") =
      firstOf [username, g.envUser] (askUser 0) := by
    rw [hu]
    cases username with
    | some u =>
      have : u ≠ "" := fun e => eu (by rw [e])
      simp [empty, firstOf, this]
    | none =>
      cases he : g.envUser with
      | none => simp [empty, firstOf]
      | some u => by_cases hu : u = "" <;> simp [empty, firstOf, hu]
  have h2 : (if empty (g.password.getD g.envPassword) then askPassword 0 else (g.password.getD g.envPassword).getD "") =
      firstOf [password, g.envPassword] (askPassword 0) := by
    rw [hp]
    cases password with
    | some u =>
      have : u ≠ "" := fun e => ep (by rw [e])
      simp [empty, firstOf, this]
    | none =>
      cases he : g.envPassword with
      | none => simp [empty, firstOf]
      | some u => by_cases hu : u = "" <;> simp [empty, firstOf, hu]
  have hs : (start g askUser askPassword).1 =
      (firstOf [username, g.envUser] (askUser 0), firstOf [password, g.envPassword] (askPassword 0)) := by
    simp only [start, known, hn]
    rw [h1, h2]
  rw [head_start g accept askUser askPassword hr, hs]

/-- **C126.** If `.netrc` has an entry with a name and a password for the host, these are tried first, whatever
the arguments and the environment are. -/
theorem C126_netrc (g : Given) (u p : String) (accept : Nat → Cred → Bool) (askUser askPassword : Nat → String)
    (hn : g.netrc = some (u, some p)) (hu : u ≠ "") (hp : p ≠ "") (hr : g.retries ≠ some 0) :
    (attemptLogin g accept askUser askPassword).1.head? = some (u, p) := by
  have hs : (start g askUser askPassword).1 = (u, p) := by
    simp [start, known, hn, empty, hu, hp]
  rw [head_start g accept askUser askPassword hr, hs]

/-- **C126 (refuted for tokens).** `get_token`, `list_tokens` and `revoke_token` without arguments do not use the
environment variables: the user is asked for the name and the password although both are set. -/
theorem C126_token_false (u p : String) (accept : Nat → Cred → Bool) (askUser askPassword : Nat → String) :
    (attemptLogin (tokenLogin none none (some u) (some p) none) accept askUser askPassword).1.head? =
      some (askUser 0, askPassword 0) := by
  rw [head_start _ _ _ _ (by simp [tokenLogin])]
  rfl

/-! ### How often they are tried -/

theorem loop_spec (accept : Nat → Cred → Bool) (askUser askPassword : Nat → String) (prompt : Bool) :
    ∀ (n k : Nat) (c : Cred), (loop accept askUser askPassword prompt n k c).1.length ≤ n ∧
      ∀ d, (loop accept askUser askPassword prompt n k c).2 = .ok d →
        ∃ i, (loop accept askUser askPassword prompt n k c).1.length = i + 1 ∧
          (loop accept askUser askPassword prompt n k c).1[i]? = some d ∧ accept (k + i) d = true ∧
          ∀ j e, j < i → (loop accept askUser askPassword prompt n k c).1[j]? = some e → accept (k + j) e = false := by
  intro n
  induction n with
  | zero => intro k c; exact ⟨Nat.le_refl _, fun d h => by cases h⟩
  | succ n ih =>
    intro k c
    by_cases ha : accept k c = true
    · have e : loop accept askUser askPassword prompt (n + 1) k c = ([c], .ok c) := by
        rw [loop, if_pos ha]
      rw [e]
      refine ⟨Nat.succ_le_succ (Nat.zero_le n), ?_⟩
      intro d hd
      cases hd
      exact ⟨0, rfl, rfl, ha, fun j e h => absurd h (Nat.not_lt_zero _)⟩
    · by_cases hp : prompt = true
      · have e : loop accept askUser askPassword prompt (n + 1) k c =
            (c :: (loop accept askUser askPassword prompt n (k + 1) (askUser (k + 1), askPassword (k + 1))).1,
              (loop accept askUser askPassword prompt n (k + 1) (askUser (k + 1), askPassword (k + 1))).2) := by
          rw [loop, if_neg ha, if_neg (by simp [hp])]
        rw [e]
        obtain ⟨h1, h2⟩ := ih (k + 1) (askUser (k + 1), askPassword (k + 1))
        refine ⟨Nat.succ_le_succ h1, ?_⟩
        intro d hd
        obtain ⟨i, hl, hi, hacc, hrej⟩ := h2 d hd
        refine ⟨i + 1, by simp [hl], by simpa using hi, ?_, ?_⟩
        · rw [show k + (i + 1) = k + 1 + i by omega]; exact hacc
        · intro j e hj he
          cases j with
          | zero =>
            simp only [List.getElem?_cons_zero, Option.some.injEq] at he
            rw [← he]
            simpa using ha
          | succ j =>
            rw [List.getElem?_cons_succ] at he
            rw [show k + (j + 1) = k + 1 + j by omega]
            exact hrej j e (by omega) he
      · have e : loop accept askUser askPassword prompt (n + 1) k c = ([c], .error .unbound) := by
          rw [loop, if_neg ha, if_pos (by simpa using hp)]
        rw [e]
        exact ⟨Nat.succ_le_succ (Nat.zero_le n), fun d hd => by cases hd⟩

/-- **C126.** For every user, server and number of retries: at most that many credentials are tried, and if a
login succeeds it returns an opener with the credentials that were tried last, which the server
accepted, while it refused all before. -/
theorem C126_accepted (g : Given) (accept : Nat → Cred → Bool) (askUser askPassword : Nat → String) :
    (attemptLogin g accept askUser askPassword).1.length ≤ g.retries.getD 5 ∧
      ∀ d, (attemptLogin g accept askUser askPassword).2 = .ok d →
        ∃ i, (attemptLogin g accept askUser askPassword).1.length = i + 1 ∧
          (attemptLogin g accept askUser askPassword).1[i]? = some d ∧ accept i d = true ∧
          ∀ j e, j < i → (attemptLogin g accept askUser askPassword).1[j]? = some e → accept j e = false := by
  have h := loop_spec accept askUser askPassword (start g askUser askPassword).2 (g.retries.getD 5) 0
    (start g askUser askPassword).1
  simp only [Nat.zero_add] at h
  exact h

theorem loop_asked (accept : Nat → Cred → Bool) (askUser askPassword : Nat → String) :
    ∀ (n k : Nat) (c : Cred), c = (askUser k, askPassword k) →
      ((∃ d, (loop accept askUser askPassword true n k c).2 = .ok d) ↔
        ∃ i, k ≤ i ∧ i < k + n ∧ accept i (askUser i, askPassword i) = true) := by
  intro n
  induction n with
  | zero =>
    intro k c _
    constructor
    · rintro ⟨d, hd⟩; cases hd
    · rintro ⟨i, h1, h2, -⟩; omega
  | succ n ih =>
    intro k c hc
    by_cases ha : accept k c = true
    · constructor
      · intro _
        exact ⟨k, Nat.le_refl _, by omega, hc ▸ ha⟩
      · intro _
        exact ⟨c, by rw [loop, if_pos ha]⟩
    · have e : (loop accept askUser askPassword true (n + 1) k c).2 =
          (loop accept askUser askPassword true n (k + 1) (askUser (k + 1), askPassword (k + 1))).2 := by
        rw [loop, if_neg ha, if_neg (by simp)]
      rw [e, ih (k + 1) _ rfl]
      constructor
      · rintro ⟨i, h1, h2, h3⟩; exact ⟨i, by omega, by omega, h3⟩
      · rintro ⟨i, h1, h2, h3⟩
        refine ⟨i, ?_, by omega, h3⟩
        rcases Nat.lt_or_ge k i with h | h
        · exact h
        · have : i = k := by omega
          subst this
          exact absurd (hc ▸ h3) ha

/-- **C126 (partial).** If nothing is known beforehand, a login succeeds exactly if the server accepts one of the
first answers of the user, as many as there are retries.  With credentials that are known there is
one attempt only (`C126_retry_false`). -/
theorem C126_retries_partial (g : Given) (accept : Nat → Cred → Bool) (askUser askPassword : Nat → String)
    (hn : g.netrc = none) (hu : empty (g.username.getD g.envUser) = true)
    (hp : empty (g.password.getD g.envPassword) = true) :
    (∃ d, (attemptLogin g accept askUser askPassword).2 = .ok d) ↔
      ∃ i, i < g.retries.getD 5 ∧ accept i (askUser i, askPassword i) = true := by
  have hs : start g askUser askPassword = ((askUser 0, askPassword 0), true) := by
    simp only [start, known, hn, hu, hp, if_true]
  unfold attemptLogin
  simp only [hs]
  rw [loop_asked accept askUser askPassword (g.retries.getD 5) 0 _ rfl]
  constructor
  · rintro ⟨i, -, h2, h3⟩; exact ⟨i, by omega, h3⟩
  · rintro ⟨i, h2, h3⟩; exact ⟨i, Nat.zero_le _, by omega, h3⟩

/-- **C126 (refuted for known credentials).** If the password is known beforehand and the server refuses it once
(or cannot be reached), the login fails with an `UnboundLocalError`, whatever the user would answer and
however many retries are asked for. -/
theorem C126_retry_false (g : Given) (u p : String) (accept : Nat → Cred → Bool) (askUser askPassword : Nat → String)
    (hn : g.netrc = some (u, some p)) (hu : u ≠ "") (hp : p ≠ "") (hr : g.retries ≠ some 0)
    (refused : accept 0 (u, p) = false) :
    attemptLogin g accept askUser askPassword = ([(u, p)], .error .unbound) := by
  have hs : start g askUser askPassword = ((u, p), false) := by
    simp [start, known, hn, empty, hu, hp]
  obtain ⟨m, hm⟩ : ∃ m, g.retries.getD 5 = m + 1 := by
    cases h : g.retries with
    | none => exact ⟨4, rfl⟩
    | some r =>
      cases r with
      | zero => exact absurd h hr
      | succ m => exact ⟨m, rfl⟩
  unfold attemptLogin
  simp only [hm, hs, loop, refused]
  rfl

/-- A user who mistypes the password once and gets in at the second attempt. -/
example : attemptLogin ⟨none, none, none, none, none, none⟩ (fun _ c => c = ("ann", "secret")) (fun _ => "ann")
    (fun k => if k = 0 then "sceret" else "secret") =
    ([("ann", "sceret"), ("ann", "secret")], .ok ("ann", "secret")) := by decide +kernel

/-! ### Where they are sent -/

/-- The opener that is installed has the credentials and the host of a call `build_opener` or of a call with
`build` among the calls, and no header. -/
def Fits (l : List Call) (o : Option Opener) : Prop :=
  ∀ x, o = some x → x.header = false ∧ ∀ h, x.manager = some h →
    (∃ b, Call.build x.cred true b h ∈ l) ∨ (h = urs ∧ ∃ c r, Call.cddis true x.cred c r ∈ l)

/-- To whom a call of `cddis_list` or `from_cddis` is made. -/
def Addressed (l : List Call) (h : String) (c : Cred) : Prop :=
  (∃ b, Call.build c true b h ∈ l) ∨ (h = urs ∧ ∃ k r, Call.cddis true c k r ∈ l) ∨
    ∃ b k r, Call.cddis b c k r ∈ l ∧ ∃ p ∈ r, p.host = h

theorem sent_mem {o : Option Opener} {own : Option Cred} {r : List Hop} {l : List Call} (hf : Fits l o) {h : String}
    {c : Cred} (hm : (h, c) ∈ sent o own r) :
    (own = some c ∧ ∃ p ∈ r, p.host = h) ∨ (∃ b, Call.build c true b h ∈ l) ∨
      (h = urs ∧ ∃ k r, Call.cddis true c k r ∈ l) := by
  obtain ⟨p, hp, hm⟩ := List.mem_flatMap.1 hm
  unfold sentHop at hm
  simp only [List.mem_append] at hm
  rcases hm with (hm | hm) | hm
  · left
    obtain ⟨d, hd, e⟩ := List.mem_map.1 hm
    cases e
    exact ⟨by simpa using hd, p, hp, rfl⟩
  · cases o with
    | none => simp at hm
    | some x =>
      cases own with
      | some d => simp at hm
      | none => simp [(hf x rfl).1] at hm
  · right
    cases o with
    | none => simp at hm
    | some x =>
      simp only at hm
      split at hm
      · rename_i hc
        simp only [Bool.and_eq_true, beq_iff_eq] at hc
        simp only [List.mem_singleton, Prod.mk.injEq] at hm
        obtain ⟨rfl, rfl⟩ := hm
        exact (hf x rfl).2 _ hc.2
      · simp at hm

/-- Calls that put no header into the opener: all but those for tokens and `build_opener` with
`authorization_header`. -/
def NoHeader : Call → Prop
  | .build _ _ b _ => b = false
  | .token .. => False
  | _ => True

theorem call_fits {l : List Call} {x : Call} {o : Option Opener} (hx : x ∈ l) (hn : NoHeader x) (hf : Fits l o) :
    Fits l (call o x).1 := by
  cases x with
  | fetch r => exact hf
  | «open» r => exact hf
  | build c m b u =>
    intro y hy
    simp only [call, Option.some.injEq] at hy
    subst hy
    refine ⟨hn, ?_⟩
    intro h hh
    cases m with
    | false => cases hh
    | true =>
      simp only [if_true, Option.some.injEq] at hh
      subst hh
      exact Or.inl ⟨b, hx⟩
  | cddis b c k r =>
    cases b with
    | false => exact hf
    | true =>
      intro y hy
      simp only [call, if_true, Option.some.injEq] at hy
      subst hy
      exact ⟨rfl, fun h hh => Or.inr ⟨(Option.some.inj hh).symm, k, r, hx⟩⟩
  | token c k r => exact hn.elim

theorem call_sent {l : List Call} {x : Call} {o : Option Opener} (hx : x ∈ l) (hn : NoHeader x) (hf : Fits l o)
    {h : String} {c : Cred} (hm : (h, c) ∈ (call o x).2) : Addressed l h c := by
  have h0 : Fits l none := fun y hy => by cases hy
  cases x with
  | fetch r =>
    rcases sent_mem h0 hm with ⟨e, -⟩ | e | e
    · cases e
    · exact Or.inl e
    · exact Or.inr (Or.inl e)
  | «open» r =>
    rcases sent_mem hf hm with ⟨e, -⟩ | e | e
    · cases e
    · exact Or.inl e
    · exact Or.inr (Or.inl e)
  | build => simp [call] at hm
  | cddis b d k r =>
    have hf' := call_fits hx hn hf
    simp only [call, List.mem_append] at hm
    rcases hm with hm | hm
    · cases b with
      | false => simp at hm
      | true =>
        simp only [if_true] at hm
        rcases sent_mem hf' hm with ⟨e, -⟩ | e | e
        · cases e
        · exact Or.inl e
        · exact Or.inr (Or.inl e)
    · rcases sent_mem hf' hm with ⟨e, p⟩ | e | e
      · cases e
        exact Or.inr (Or.inr ⟨b, k, r, hx, p⟩)
      · exact Or.inl e
      · exact Or.inr (Or.inl e)
  | token => exact hn.elim

/-- **C126 (partial).** For every history of calls that does not ask for a header in the opener: credentials are
only sent to the host for which an opener was built with them, and to the servers to which the
functions for CDDIS were directed with them.  The latter include the servers to which these redirect
(`C126_redirect_false`); for the functions for tokens see `C126_header_false`. -/
theorem C126_hosts_partial (l : List Call) (hl : ∀ x ∈ l, NoHeader x) (h : String) (c : Cred)
    (hm : (h, c) ∈ (history none l).2) : Addressed l h c := by
  have key : ∀ (k : List Call) (o : Option Opener), (∀ x ∈ k, x ∈ l) → Fits l o →
      (h, c) ∈ (history o k).2 → Addressed l h c := by
    intro k
    induction k with
    | nil => intro o _ _ hm; cases hm
    | cons x k ih =>
      intro o hk hf hm
      have hx := hk x (List.mem_cons_self ..)
      rcases List.mem_append.1 hm with hm | hm
      · exact call_sent hx (hl x hx) hf hm
      · exact ih _ (fun y hy => hk y (List.mem_cons_of_mem _ hy)) (call_fits hx (hl x hx) hf) hm
  exact key l none (fun _ h => h) (fun y hy => by cases hy) hm

/-- **C126.** The functions that fetch files of tide models, ephemerides and Earth orientation over encrypted
connections send no credentials to anyone, whatever was called before. -/
theorem C126_fetch (l : List Call) (r : List Hop) : (call (history none l).1 (.fetch r)).2 = [] := by
  simp [call, sent, sentHop]

/-- **C126 (refuted for tokens).** After a call of one of the functions for tokens, every later request of the
process that has no context of its own sends the name and the password to its server, whichever it is;
and the login itself sends them to the server with which it checks them. -/
theorem C126_header_false (l : List Call) (c : Cred) (check request : List Hop) (p : Hop) :
    (p.host, c) ∈ (call (history none (l ++ [.token c check request])).1 (.open [p])).2 ∧
      (p ∈ check → (p.host, c) ∈ (call (history none l).1 (.token c check request)).2) := by
  have e : ∀ o, (history o (l ++ [.token c check request])).1 = some ⟨c, none, true⟩ := by
    induction l with
    | nil => intro o; rfl
    | cons x l ih => intro o; exact ih _
  constructor
  · rw [e]
    simp [call, sent, sentHop]
  · intro hp
    refine List.mem_append_left _ (List.mem_flatMap.2 ⟨p, hp, ?_⟩)
    simp [sentHop]

/-- **C126 (refuted for redirections).** The functions for CDDIS send the name and the password to every server to
which they are redirected. -/
theorem C126_redirect_false (o : Option Opener) (b : Bool) (c : Cred) (check request : List Hop) (p : Hop)
    (hp : p ∈ request) : (p.host, c) ∈ (call o (.cddis b c check request)).2 := by
  refine List.mem_append_right _ (List.mem_flatMap.2 ⟨p, hp, ?_⟩)
  simp [sentHop]

/-- A login and a request that is sent to the login server: the password goes to that server only. -/
example : (history none [.build ("ann", "secret") true false urs, .fetch [⟨"github.com", true⟩],
    .open [⟨"cddis.nasa.gov", false⟩, ⟨urs, true⟩]]).2 = [(urs, ("ann", "secret"))] := by decide +kernel

end Verif.Login
