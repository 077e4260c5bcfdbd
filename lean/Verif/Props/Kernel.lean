import Verif.Model.Kernel
import Verif.Spec.Kernel
import Verif.Props.Transfer
/-!
C122: the ephemerides that positions are computed from are those with the name of the file that was given.
-/
namespace Verif.Kernel
open Verif Verif.Posix Verif.Mirror Verif.Transfer Verif.Spec

/-- A path that does not begin with a home directory. -/
def Plain (p : Path) : Prop := p.root = true ∨ ∀ u rest, p.parts ≠ ('~' :: u) :: rest

theorem expand_plain (w : World) (p : Path) (h : Plain p) : expand w p = .ok (place w p) := by
  obtain ⟨root, parts⟩ := p
  rw [expand, expanduser.eq_def]
  split
  · next e1 e2 =>
    rcases h with h | h
    · rw [h] at e1
      cases e1
    · exact absurd e2 (h _ _)
  · rfl

theorem join_front : Locator.join2 (Locator.join2 (Locator.join2 (Locator.join2
    "https://ssd.jpl.nasa.gov".toList "ftp".toList) "eph".toList) "planets".toList) "bsp".toList =
    "https://ssd.jpl.nasa.gov/ftp/eph/planets/bsp".toList := by decide +kernel

theorem front_slash : "https://ssd.jpl.nasa.gov/ftp/eph/planets/bsp/".toList =
    "https://ssd.jpl.nasa.gov/ftp/eph/planets/bsp".toList ++ ['/'] := by decide +kernel

theorem front_last : ¬ ("https://ssd.jpl.nasa.gov/ftp/eph/planets/bsp".toList = [] ∨
    "https://ssd.jpl.nasa.gov/ftp/eph/planets/bsp".toList.getLast? = some '/') := by decide +kernel

theorem join_last (a c k : Name) (hc : c = a ++ ['/']) (ha : ¬ (a = [] ∨ a.getLast? = some '/'))
    (h : k.head? ≠ some '/') : Locator.join2 a k = c ++ k := by
  rw [Locator.join2, if_neg h, if_neg ha, hc, List.append_assoc, List.singleton_append]

theorem join_six (a b c d e k : Name) : Locator.join [a, b, c, d, e, k] =
    Locator.join2 (Locator.join2 (Locator.join2 (Locator.join2 (Locator.join2 a b) c) d) e) k := rfl

theorem join_host (k : Name) (h : k.head? ≠ some '/') : Locator.join (jplHost k) = kernelAddress k :=
  (join_six _ _ _ _ _ k).trans ((congrArg (Locator.join2 · k) join_front).trans
    (join_last _ _ k front_slash front_last h))

/-- The parts of a path have no slash. -/
def Parts (l : List Name) : Prop := ∀ a ∈ l, '/' ∉ a

theorem fileName_head {l : List Name} (h : Parts l) : (fileName l).head? ≠ some '/' := by
  rw [fileName]
  cases e : l.getLast? with
  | none => simp
  | some a =>
    intro c
    exact h a (List.mem_of_getLast? e) (List.mem_of_head? c)

theorem fetch_new (w : World) (p : Path) (h : Plain p) (hp : Parts (place w p)) (d : Disk (List Name))
    (hn : d (place w p) = none) : fetchOps w p d = match w.server (kernelAddress (fileName (place w p))) with
      | none => .error .exception
      | some b => if "" ≠ w.digest b then
          .ok (downloadOps w.digest w.now 16384 b none (some (place w p)) "") else .ok [] := by
  have e2 : expand w ⟨true, place w p⟩ = .ok (place w p) := expand_plain w _ (Or.inl rfl)
  rw [fetchOps, hn]
  simp only [Option.isSome_none, Bool.false_eq_true, if_false]
  rw [jplOps, expand_plain w p h]
  change httpOps w (jplHost (fileName (place w p))) ⟨true, place w p⟩ "" 16384 = _
  rw [httpOps, join_host _ (fileName_head hp), e2]
  rfl

/-- **C122** (one use).  A kernel that exists is opened as it is and no file changes.  One that does not exist
is fetched from the server by the name of the file that was given, the same bytes are opened, and no other
file changes.  If the server does not have it there is an exception and no file changes. -/
theorem C122_use (w : World) (hd : ∀ b, w.digest b ≠ "") (kernel : Option Path)
    (p : Path) (hk : p = kernel.getD (defaultKernel w)) (h : Plain p) (hp : Parts (place w p))
    (d : Disk (List Name)) :
    (∀ f, d (place w p) = some f → use w kernel d = (.ok f.content, d)) ∧
    (d (place w p) = none → ∀ b, w.server (kernelAddress (fileName (place w p))) = some b →
      (use w kernel d).1 = .ok b ∧ (∃ t, (use w kernel d).2 (place w p) = some ⟨b, t⟩) ∧
      ∀ q ≠ place w p, (use w kernel d).2 q = d q) ∧
    (d (place w p) = none → w.server (kernelAddress (fileName (place w p))) = none →
      use w kernel d = (.error .exception, d)) := by
  subst hk
  refine ⟨fun f hf => ?_, fun hn b hb => ?_, fun hn hs => ?_⟩
  · rw [use, fetchOps, hf, Option.isSome_some, if_pos rfl]
    change (openKernel w _ d, d) = _
    rw [openKernel, hf]
  · have e := fetch_new w _ h hp d hn
    rw [hb] at e
    simp only [if_pos (hd b).symm] at e
    obtain ⟨-, ⟨f, hf, hc, -⟩, ho⟩ := C101_download w.digest w.now 16384 b none
      (place w (kernel.getD (defaultKernel w))) "" d (Or.inl rfl) (hd b) (by simp [hn])
    rw [use, e]
    dsimp only
    obtain ⟨c, t⟩ := f
    change c = b at hc
    subst hc
    refine ⟨?_, ⟨t, hf⟩, ho⟩
    rw [openKernel]
    change (match (download w.digest w.now 16384 (some c) none (some (place w _)) "" d).2 (place w _) with
      | some f => Except.ok f.content
      | none => _) = _
    rw [hf]
  · have e := fetch_new w _ h hp d hn
    rw [hs] at e
    rw [use, e]

/-- The files with the names of kernels at given places are those of the server. -/
def Genuine (w : World) (places : List (List Name)) (d : Disk (List Name)) : Prop :=
  ∀ q ∈ places, ∀ f, d q = some f → w.server (kernelAddress (fileName q)) = some f.content

/-- **C122** (histories).  If the kernels on the disk are those of the server, then after any uses of kernels
they still are, and every use got the bytes of the kernel with the name of its file, or there was an
exception because the server does not have it. -/
theorem C122_history_partial (w : World) (hd : ∀ b, w.digest b ≠ "") (l : List (Option Path))
    (h : ∀ k ∈ l, Plain (k.getD (defaultKernel w)) ∧ Parts (place w (k.getD (defaultKernel w))))
    (d : Disk (List Name)) (places : List (List Name))
    (hl : ∀ k ∈ l, place w (k.getD (defaultKernel w)) ∈ places) (hg : Genuine w places d) :
    Genuine w places (uses w l d).2 ∧
    List.Forall₂ (fun k r => r = match w.server (kernelAddress
        (fileName (place w (k.getD (defaultKernel w))))) with
      | some b => .ok b
      | none => .error .exception) l (uses w l d).1 := by
  induction l generalizing d with
  | nil => exact ⟨hg, List.Forall₂.nil⟩
  | cons k l ih =>
    obtain ⟨h1, h2⟩ := h k (by simp)
    obtain ⟨ha, hb, hc⟩ := C122_use w hd k _ rfl h1 h2 d
    have step : Genuine w places (use w k d).2 ∧ (use w k d).1 =
        match w.server (kernelAddress (fileName (place w (k.getD (defaultKernel w))))) with
        | some b => .ok b
        | none => .error .exception := by
      cases e : d (place w (k.getD (defaultKernel w))) with
      | some f =>
        rw [ha f e]
        refine ⟨hg, ?_⟩
        rw [hg _ (hl k (by simp)) f e]
      | none =>
        cases es : w.server (kernelAddress (fileName (place w (k.getD (defaultKernel w))))) with
        | none =>
          rw [hc e es]
          exact ⟨hg, rfl⟩
        | some b =>
          obtain ⟨r1, ⟨t, r2⟩, r3⟩ := hb e b es
          refine ⟨fun q hq f hf => ?_, r1⟩
          by_cases c : q = place w (k.getD (defaultKernel w))
          · subst c
            rw [r2, Option.some.injEq] at hf
            rw [es, ← hf]
          · rw [r3 q c] at hf
            exact hg q hq f hf
    obtain ⟨i1, i2⟩ := ih (fun k' hk' => h k' (by simp [hk'])) (use w k d).2
      (fun k' hk' => hl k' (by simp [hk'])) step.1
    exact ⟨i1, List.Forall₂.cons step.2 i2⟩

/-- Steps that write a file when no hash is given. -/
theorem written (w : World) (hd : ∀ b, w.digest b ≠ "") (chunk : ℕ) (b : List UInt8) (q : List Name)
    (d : Disk (List Name)) : ∃ t, exec d (downloadOps w.digest w.now chunk b none (some q) "") =
      Function.update d q (some ⟨b, t⟩) := by
  obtain ⟨t, e⟩ := exec_whole w.now q (pieces chunk b) d
  refine ⟨t, ?_⟩
  rw [downloadOps_some, if_pos (hd b).symm, timeOps, List.append_nil, e, flatten_pieces]

/-- **C122** (fetched by name).  `from_jpl_ssd` with a name and no path writes the kernel with this name into
the directory for data of the package, where the default kernel is looked for. -/
theorem C122_named (w : World) (hd : ∀ b, w.digest b ≠ "") (k : Name) (hk : k.head? ≠ some '/')
    (d : Disk (List Name)) (b : List UInt8) (hs : w.server (kernelAddress k) = some b) (chunk : ℕ) :
    ∃ ops t, jplOps w (some k) none "" chunk = .ok ops ∧
      exec d ops = Function.update d (w.package ++ ["data".toList, k]) (some ⟨b, t⟩) ∧
      (k = "de440s.bsp".toList → use w none (exec d ops) = (.ok b, exec d ops)) := by
  have e2 : expand w (dataPath w k) = .ok (w.package ++ ["data".toList, k]) := expand_plain w _ (Or.inl rfl)
  obtain ⟨t, e⟩ := written w hd chunk b (w.package ++ ["data".toList, k]) d
  refine ⟨_, t, ?_, e, fun hk => ?_⟩
  · rw [jplOps, httpOps, join_host k hk, hs]
    dsimp only
    rw [if_pos (hd b).symm, e2]
    rfl
  · subst hk
    rw [e]
    have h1 : Function.update d (w.package ++ ["data".toList, "de440s.bsp".toList]) (some ⟨b, t⟩)
        (place w ((none : Option Path).getD (defaultKernel w))) = some ⟨b, t⟩ := Function.update_self ..
    rw [use, fetchOps, h1, Option.isSome_some, if_pos rfl]
    dsimp only
    rw [exec, List.foldl_nil, openKernel, h1]

/-- **C122** (refuted: home directories).  A kernel in a home directory that is written with a tilde is fetched
at every use, into the home directory, and is never found: the path that is looked at and opened is the one
with the tilde. -/
theorem C122_home_false (w : World) (hd : ∀ b, w.digest b ≠ "") (user : Name) (dir : List Name)
    (rest : List Name) (hr : rest ≠ []) (hh : w.home user = some dir) (hp : Parts rest)
    (d : Disk (List Name)) (b : List UInt8) (hs : w.server (kernelAddress (fileName rest)) = some b)
    (hn : d (w.cwd ++ ('~' :: user) :: rest) = none) (hne : w.cwd ++ ('~' :: user) :: rest ≠ dir ++ rest) :
    (use w (some ⟨false, ('~' :: user) :: rest⟩) d).1 = .error .fileNotFound ∧
    ∃ t, (use w (some ⟨false, ('~' :: user) :: rest⟩) d).2 =
      Function.update d (dir ++ rest) (some ⟨b, t⟩) := by
  obtain ⟨t, e⟩ := written w hd 16384 b (dir ++ rest) d
  have hl : fileName (dir ++ rest) = fileName rest := by
    rw [fileName, fileName, List.getLast?_append_of_ne_nil _ hr]
  have e1 : expand w ⟨false, ('~' :: user) :: rest⟩ = .ok (dir ++ rest) := by
    rw [expand, expanduser]
    simp only [hh]
    rfl
  have e2 : expand w ⟨true, dir ++ rest⟩ = .ok (dir ++ rest) := expand_plain w _ (Or.inl rfl)
  have f : fetchOps w ⟨false, ('~' :: user) :: rest⟩ d =
      .ok (downloadOps w.digest w.now 16384 b none (some (dir ++ rest)) "") := by
    have h0 : place w ⟨false, ('~' :: user) :: rest⟩ = w.cwd ++ ('~' :: user) :: rest := rfl
    rw [fetchOps, h0, hn]
    simp only [Option.isSome_none, Bool.false_eq_true, if_false]
    rw [jplOps, e1]
    change httpOps w (jplHost (fileName (dir ++ rest))) ⟨true, dir ++ rest⟩ "" 16384 = _
    rw [httpOps, hl, join_host _ (fileName_head hp), hs]
    dsimp only
    rw [if_pos (hd b).symm, e2]
    rfl
  rw [use, Option.getD_some, f]
  dsimp only
  rw [e]
  refine ⟨?_, t, rfl⟩
  have h0 : place w ⟨false, ('~' :: user) :: rest⟩ = w.cwd ++ ('~' :: user) :: rest := rfl
  rw [openKernel, h0, Function.update_of_ne hne, hn]

/-- **C122** (refuted: a path alone).  `from_jpl_ssd` with a path and the default of the other arguments writes
the kernel `de440s.bsp`, whatever the name in the path is. -/
theorem C122_path_false (w : World) (hd : ∀ b, w.digest b ≠ "") (p : Path) (h : Plain p)
    (d : Disk (List Name)) (b : List UInt8)
    (hs : w.server (kernelAddress "de440s.bsp".toList) = some b) (chunk : ℕ) :
    ∃ ops t, jplOps w (some "de440s.bsp".toList) (some p) "" chunk = .ok ops ∧
      exec d ops = Function.update d (place w p) (some ⟨b, t⟩) ∧
      use w (some p) (exec d ops) = (.ok b, exec d ops) := by
  obtain ⟨t, e⟩ := written w hd chunk b (place w p) d
  refine ⟨_, t, ?_, e, ?_⟩
  · rw [jplOps, httpOps, join_host _ (by decide), hs]
    dsimp only
    rw [if_pos (hd b).symm, expand_plain w p h]
    rfl
  · rw [e]
    have h1 : Function.update d (place w p) (some ⟨b, t⟩) (place w ((some p).getD (defaultKernel w))) =
      some ⟨b, t⟩ := Function.update_self ..
    rw [use, fetchOps, h1, Option.isSome_some, if_pos rfl]
    dsimp only
    rw [exec, List.foldl_nil, openKernel, h1]

/-- **C122** (refuted: interrupted runs).  If the first use is interrupted after the file was created, all later
uses open the part that was written and never fetch the rest. -/
theorem C122_interrupted_false (w : World) (hd : ∀ b, w.digest b ≠ "") (p : Path) (h : Plain p)
    (hp : Parts (place w p)) (d : Disk (List Name)) (hn : d (place w p) = none) (b : List UInt8)
    (hs : w.server (kernelAddress (fileName (place w p))) = some b) :
    ∃ ops, fetchOps w p d = .ok ops ∧ ∀ n, use w (some p) (exec d (ops.take (n + 1))) =
      (.ok (((pieces 16384 b).take n).flatten), exec d (ops.take (n + 1))) := by
  have e := fetch_new w p h hp d hn
  rw [hs] at e
  simp only [if_pos (hd b).symm] at e
  refine ⟨_, e, fun n => ?_⟩
  obtain ⟨t, e2⟩ := exec_write w.now (place w p) (pieces 16384 b) d n
  rw [downloadOps_some, if_pos (hd b).symm, timeOps, List.append_nil, e2]
  have h1 : Function.update d (place w p) (some ⟨((pieces 16384 b).take n).flatten, t⟩)
      (place w ((some p).getD (defaultKernel w))) = some ⟨((pieces 16384 b).take n).flatten, t⟩ :=
    Function.update_self ..
  rw [use, fetchOps, h1, Option.isSome_some, if_pos rfl]
  dsimp only
  rw [exec, List.foldl_nil, openKernel, h1]

/-- **C122** (no name).  Without a name and a path there is a `TypeError`. -/
theorem C122_nothing (w : World) (hash : String) (chunk : ℕ) :
    jplOps w none none hash chunk = .error .typeError := rfl

/-- A world that meets the hypotheses: the server has the kernel `a.bsp` of one byte. -/
def small : World where
  home u := if u = [] then some ["root".toList] else none
  cwd := ["tmp".toList]
  package := ["p".toList]
  server u := if u = kernelAddress "a.bsp".toList then some [7] else none
  digest _ := "x"
  now _ := 0

/-- A relative and an absolute path in this world, and one that begins with a tilde. -/
example : (∀ b, small.digest b ≠ "") ∧
    (use small (some ⟨false, ["k".toList, "a.bsp".toList]⟩) fun _ => none).1 = .ok [7] ∧
    (use small (some ⟨true, ["a.bsp".toList]⟩) fun _ => none).1 = .ok [7] ∧
    (use small none fun _ => none).1 = .error .exception ∧
    (use small (some ⟨false, ["~".toList, "a.bsp".toList]⟩) fun _ => none).1 = .error .fileNotFound := by
  refine ⟨fun b => by simp [small], ?_, ?_, ?_, ?_⟩ <;> decide +kernel

end Verif.Kernel
