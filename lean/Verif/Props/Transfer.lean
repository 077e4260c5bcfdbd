import Verif.Model.Transfer
import Verif.Props.Mirror
import Verif.Lemmas.Py
/-!
C101: downloads that are checked with a hash repair themselves, and moving a file never loses it.
-/
namespace Verif.Transfer
open Verif Verif.Mirror

variable {P : Type} [DecidableEq P]

/-! ### Pieces -/

theorem flatten_chunked (n : ℕ) (hn : 0 < n) : ∀ (k : ℕ) (b : List UInt8), b.length ≤ k →
    (chunked n k b).flatten = b
  | 0, b, h => by
    have : b = [] := List.eq_nil_of_length_eq_zero (by omega)
    rw [this]; rfl
  | k + 1, [], _ => rfl
  | k + 1, x :: l, h => by
    rw [chunked, List.flatten_cons, flatten_chunked n hn k _ (by
      rw [List.length_drop, List.length_cons]
      rw [List.length_cons] at h
      omega), List.take_append_drop]

theorem flatten_pieces (length : ℕ) (b : List UInt8) : (pieces length b).flatten = b := by
  rw [pieces]
  refine flatten_chunked _ ?_ _ b le_rfl
  split <;> omega

/-- The steps that write a file, cut off anywhere: nothing yet, or a beginning of it. -/
theorem exec_write (now : ℕ → ℚ) (p : P) (b : List (List UInt8)) (d : Disk P) (n : ℕ) :
    ∃ t, exec d ((.truncate p (now 0) :: pieceOps now p 1 b).take (n + 1)) =
      Function.update d p (some ⟨(b.take n).flatten, t⟩) := by
  obtain ⟨t, -, -, e⟩ := exec_pieces now p b n 1 (step d (.truncate p (now 0))) ⟨[], now 0⟩
    (by rw [step, Function.update_self])
  refine ⟨if b = [] then now 0 else t, ?_⟩
  rw [List.take_succ_cons, exec, List.foldl_cons]
  rw [exec] at e
  rw [e, step, Function.update_idem, List.nil_append]

theorem exec_whole (now : ℕ → ℚ) (p : P) (b : List (List UInt8)) (d : Disk P) :
    ∃ t, exec d (.truncate p (now 0) :: pieceOps now p 1 b) =
      Function.update d p (some ⟨b.flatten, t⟩) := by
  obtain ⟨t, e⟩ := exec_write now p b d b.length
  refine ⟨t, ?_⟩
  rw [List.take_length] at e
  rw [← e, List.take_of_length_le (by rw [List.length_cons, length_pieces])]

theorem take_split {α : Type} (x : α) (a c : List α) (n : ℕ) :
    (x :: (a ++ c)).take n = (x :: a).take n ++ c.take (n - (a.length + 1)) := by
  rw [← List.cons_append, List.take_append, List.length_cons]

/-! ### Downloads -/

theorem downloadOps_some (digest : List UInt8 → String) (now : ℕ → ℚ) (chunk : ℕ) (b : List UInt8)
    (mtime : Option ℚ) (p : P) (hash : String) :
    downloadOps digest now chunk b mtime (some p) hash =
      if hash ≠ digest b then
        .truncate p (now 0) :: (pieceOps now p 1 (pieces chunk b) ++ timeOps p mtime)
      else [] := rfl

/-- A download of bytes to a path, cut off anywhere: other files are as before, and the file is as before or
is a beginning of the bytes. -/
theorem download_cut (digest : List UInt8 → String) (now : ℕ → ℚ) (chunk : ℕ) (b : List UInt8)
    (mtime : Option ℚ) (p : P) (hash : String) (d : Disk P) (n : ℕ) :
    (∀ q ≠ p, exec d ((downloadOps digest now chunk b mtime (some p) hash).take n) q = d q) ∧
    (exec d ((downloadOps digest now chunk b mtime (some p) hash).take n) p = d p ∨
      ∃ m t, exec d ((downloadOps digest now chunk b mtime (some p) hash).take n) p =
        some ⟨((pieces chunk b).take m).flatten, t⟩) := by
  rw [downloadOps_some]
  split
  · rw [take_split, exec_append]
    cases n with
    | zero =>
      rw [List.take_zero, Nat.zero_sub, List.take_zero]
      exact ⟨fun q _ => rfl, Or.inl rfl⟩
    | succ m =>
      obtain ⟨t, e⟩ := exec_write now p (pieces chunk b) d m
      rw [e]
      have key : ∀ ops : List (Op P), (ops = [] ∨ ∃ s, ops = [.utime p s]) →
          ∃ t', exec (Function.update d p (some ⟨((pieces chunk b).take m).flatten, t⟩)) ops =
            Function.update d p (some ⟨((pieces chunk b).take m).flatten, t'⟩) := by
        rintro ops (rfl | ⟨s, rfl⟩)
        · exact ⟨t, rfl⟩
        · refine ⟨s, ?_⟩
          rw [exec, List.foldl_cons, List.foldl_nil, step, Function.update_self, Function.update_idem]
          rfl
      obtain ⟨t', e'⟩ := key ((timeOps p mtime).take (m + 1 - ((pieceOps now p 1 (pieces chunk b)).length + 1))) (by
        cases mtime with
        | none => exact Or.inl (by rw [timeOps, List.take_nil])
        | some s =>
          cases (m + 1 - ((pieceOps now p 1 (pieces chunk b)).length + 1)) with
          | zero => exact Or.inl rfl
          | succ k => exact Or.inr ⟨s, by rw [timeOps, List.take_succ_cons, List.take_nil]⟩)
      rw [e']
      refine ⟨fun q hq => Function.update_of_ne hq _ _, Or.inr ⟨m, t', ?_⟩⟩
      rw [Function.update_self]
  · rw [List.take_nil]
    exact ⟨fun q _ => rfl, Or.inl rfl⟩

/-- **C101** (a download).  If the hash that is given is that of the local file (or none, which never is the
hash of bytes), and no other content has the hash of the remote one, then afterwards the local file has the
bytes of the remote one, which are also returned; no other file is touched.  `from_ftp` sets the time of a
file that it writes. -/
theorem C101_download (digest : List UInt8 → String) (now : ℕ → ℚ) (chunk : ℕ) (b : List UInt8)
    (mtime : Option ℚ) (p : P) (hash : String) (d : Disk P)
    (hh : hash = "" ∨ ∃ f, d p = some f ∧ hash = digest f.content) (h0 : digest b ≠ "")
    (hc : ∀ f, d p = some f → digest f.content = digest b → f.content = b) :
    let r := download digest now chunk (some b) mtime (some p) hash d
    r.1 = .ok b ∧ (∃ f, r.2 p = some f ∧ f.content = b ∧
      ∀ t, mtime = some t → f.mtime = t ∨ d p = some f) ∧ ∀ q ≠ p, r.2 q = d q := by
  intro r
  refine ⟨rfl, ?_, fun q hq => ?_⟩
  · change ∃ f, exec d (downloadOps digest now chunk b mtime (some p) hash) p = some f ∧ _
    rw [downloadOps_some]
    split
    · next hne =>
      obtain ⟨t, e⟩ := exec_whole now p (pieces chunk b) d
      rw [← List.cons_append, exec_append, e, flatten_pieces]
      cases mtime with
      | none => exact ⟨⟨b, t⟩, by rw [timeOps, exec, List.foldl_nil, Function.update_self], rfl, by simp⟩
      | some s =>
        refine ⟨⟨b, s⟩, ?_, rfl, fun t ht => Or.inl (Option.some.inj ht)⟩
        rw [timeOps, exec, List.foldl_cons, List.foldl_nil, step, Function.update_self,
          Function.update_self]
        rfl
    · next he =>
      rw [ne_eq, not_not] at he
      rcases hh with h | ⟨f, hf, h⟩
      · exact absurd (he.symm.trans h) h0
      · exact ⟨f, hf, hc f hf (h.symm.trans he), fun t _ => Or.inr hf⟩
  · have := (download_cut digest now chunk b mtime p hash d
      (downloadOps digest now chunk b mtime (some p) hash).length).1 q hq
    rwa [List.take_length] at this

/-- An attempt to bring a file up to date: the version that the host has, the clock, and after how many steps
the attempt ends. -/
structure Attempt where
  bytes : List UInt8
  mtime : Option ℚ
  now : ℕ → ℚ
  cut : ℕ

/-- Attempts one after the other, each with the hash of the file that is there (`get_hash`). -/
def attempts (h : Hash) (digest : List UInt8 → String) (chunk : ℕ) (p : P) (d : Disk P) :
    List Attempt → Except PyErr (Disk P)
  | [] => .ok d
  | a :: l => do
    let s ← hashOf h "md5" d p
    attempts h digest chunk p
      (exec d ((downloadOps digest a.now chunk a.bytes a.mtime (some p) s).take a.cut)) l

/-- **C101** (no answer).  Bytes are returned exactly when the host has answered with them; otherwise an
exception is raised, and no file is touched. -/
theorem C101_unanswered (digest : List UInt8 → String) (now : ℕ → ℚ) (chunk : ℕ) (remote : Option (List UInt8))
    (mtime : Option ℚ) (loc : Option P) (hash : String) (d : Disk P) :
    (∀ b, (download digest now chunk remote mtime loc hash d).1 = .ok b ↔ remote = some b) ∧
    (remote = none → (download digest now chunk remote mtime loc hash d).2 = d) ∧
    (loc = none → (download digest now chunk remote mtime loc hash d).2 = d) := by
  cases remote with
  | none => exact ⟨fun b => ⟨fun h => (by cases h), fun h => (by cases h)⟩, fun _ => rfl, fun _ => rfl⟩
  | some c =>
    refine ⟨fun b => ⟨fun h => ?_, fun h => by cases h; rfl⟩, fun h => (by cases h), fun h => by subst h; rfl⟩
    simp only [download, Except.ok.injEq] at h
    rw [h]


theorem attempts_ok (h : Hash) (digest : List UInt8 → String) (hd : h "md5" = some digest) (chunk : ℕ)
    (p : P) : ∀ (l : List Attempt) (d : Disk P), ∃ d', attempts h digest chunk p d l = .ok d' ∧
      ∀ q ≠ p, d' q = d q
  | [], d => ⟨d, rfl, fun _ _ => rfl⟩
  | a :: l, d => by
    have e : ∃ s, hashOf h "md5" d p = .ok s := by
      rw [hashOf, hd]
      cases d p <;> exact ⟨_, rfl⟩
    obtain ⟨s, e⟩ := e
    obtain ⟨d', h1, h2⟩ := attempts_ok h digest hd chunk p l
      (exec d ((downloadOps digest a.now chunk a.bytes a.mtime (some p) s).take a.cut))
    refine ⟨d', by rw [attempts, e, ok_bind]; exact h1, fun q hq => ?_⟩
    rw [h2 q hq, (download_cut digest a.now chunk a.bytes a.mtime p s d a.cut).1 q hq]

/-- **C101** (interruptions).  After any number of attempts, of whatever versions of the remote file and each
cut off at any point, one more download with the hash of the file that is there leaves the bytes of the remote
file on the disk, if no other bytes have their hash; no other file is touched. -/
theorem C101_interrupted (h : Hash) (digest : List UInt8 → String) (hd : h "md5" = some digest) (chunk : ℕ)
    (p : P) (d : Disk P) (l : List Attempt) (now : ℕ → ℚ) (b : List UInt8) (mtime : Option ℚ)
    (h0 : digest b ≠ "") (hc : ∀ c, digest c = digest b → c = b) :
    ∃ d' s f, attempts h digest chunk p d l = .ok d' ∧ hashOf h "md5" d' p = .ok s ∧
      (download digest now chunk (some b) mtime (some p) s d').2 p = some f ∧ f.content = b ∧
      ∀ q ≠ p, (download digest now chunk (some b) mtime (some p) s d').2 q = d q := by
  obtain ⟨d', e, ho⟩ := attempts_ok h digest hd chunk p l d
  have e2 : ∃ s, hashOf h "md5" d' p = .ok s ∧ (s = "" ∨ ∃ f, d' p = some f ∧ s = digest f.content) := by
    rw [hashOf, hd]
    cases hp : d' p with
    | none => exact ⟨_, rfl, Or.inl rfl⟩
    | some f => exact ⟨_, rfl, Or.inr ⟨f, rfl, rfl⟩⟩
  obtain ⟨s, e2, hs⟩ := e2
  obtain ⟨-, ⟨f, hf, hb, -⟩, hq⟩ := C101_download digest now chunk b mtime p s d' hs h0
    (fun f _ hf => hc _ hf)
  exact ⟨d', s, f, e, e2, hf, hb, fun q hn => by rw [hq q hn, ho q hn]⟩

/-- A digest that tells all bytes apart: the hypotheses can be met. -/
example : ∃ digest : List UInt8 → String, digest [1, 2, 3] ≠ "" ∧
    ∀ c, digest c = digest [1, 2, 3] → c = [1, 2, 3] := by
  refine ⟨fun c => if c = [1, 2, 3] then "a" else "b", by simp, fun c hc => ?_⟩
  by_contra h
  simp [h] at hc

/-- **C101** (refuted: the time of a file).  A file that is there with the bytes of the remote one keeps its
own time: `from_ftp` sets the time only of files that it writes. -/
theorem C101_time_false (digest : List UInt8 → String) (now : ℕ → ℚ) (chunk : ℕ) (b : List UInt8)
    (s t : ℚ) (p : P) (d : Disk P) (hd : d p = some ⟨b, s⟩) :
    (download digest now chunk (some b) (some t) (some p) (digest b) d).2 p = some ⟨b, s⟩ := by
  change exec d (downloadOps digest now chunk b (some t) (some p) (digest b)) p = _
  rw [downloadOps_some]
  rw [if_neg (by simp)]
  exact hd

/-- **C101** (refuted: an interruption alone).  Before the next download the file may hold a part of the
bytes: a download replaces the file in place, so the version that was there is lost as soon as the file is
opened. -/
theorem C101_inplace_false (digest : List UInt8 → String) (now : ℕ → ℚ) (chunk : ℕ) (b : List UInt8)
    (mtime : Option ℚ) (p : P) (d : Disk P) (hash : String) (hne : hash ≠ digest b) :
    exec d ((downloadOps digest now chunk b mtime (some p) hash).take 1) p = some ⟨[], now 0⟩ := by
  rw [downloadOps_some]
  rw [if_pos hne, List.take_succ_cons, List.take_zero, exec, List.foldl_cons, List.foldl_nil, step,
    Function.update_self]

/-- **C101** (unknown algorithms).  `get_hash` raises `ValueError` for an unknown algorithm and a file that
exists, or a buffer.  For a file that does not exist every name of an algorithm is accepted. -/
theorem C101_algorithm (h : Hash) (algorithm : String) (ha : h algorithm = none) (d : Disk P) (p : P)
    (b : List UInt8) :
    hashBuffer h algorithm b = .error .valueError ∧
    (hashOf h algorithm d p = .error .valueError ↔ (d p).isSome) := by
  rw [hashBuffer, hashOf, ha]
  refine ⟨rfl, ?_⟩
  cases d p <;> simp

/-! ### Copies -/

/-- **C101** (copies).  A copy has the bytes and the time of the source, which stays as it is unless the file
is moved; no other file is touched.  A file is not copied onto itself. -/
theorem C101_copy (now : ℕ → ℚ) (source destination : P) (move : Bool) (d : Disk P) (f : File)
    (hf : d source = some f) (hn : source ≠ destination) :
    ∃ d', copy now source destination move d = .ok d' ∧ d' destination = some f ∧
      d' source = (if move then none else some f) ∧
      ∀ q, q ≠ source → q ≠ destination → d' q = d q := by
  rw [copy, copyOps, if_neg hn, hf]
  refine ⟨_, rfl, ?_⟩
  obtain ⟨t, e⟩ := exec_whole now destination (pieces 0 f.content) d
  rw [← List.cons_append, exec_append, e, flatten_pieces, exec, List.foldl_cons, step, Function.update_self,
    Function.update_idem, Option.map_some]
  cases move with
  | false =>
    rw [if_neg (by simp), if_neg (by simp), List.foldl_nil]
    refine ⟨by rw [Function.update_self], by rw [Function.update_of_ne hn, hf], fun q _ h => ?_⟩
    rw [Function.update_of_ne h]
  | true =>
    rw [if_pos rfl, if_pos rfl, List.foldl_cons, List.foldl_nil, step]
    refine ⟨?_, by rw [Function.update_self], fun q h1 h2 => ?_⟩
    · rw [Function.update_of_ne (Ne.symm hn), Function.update_self]
    · rw [Function.update_of_ne h1, Function.update_of_ne h2]

/-- **C101** (moving never loses a file).  At every point at which copying or moving a file may be cut off the
source is intact or the destination is a complete copy, with its time. -/
theorem C101_move (now : ℕ → ℚ) (source destination : P) (move : Bool) (d : Disk P) (f : File)
    (hf : d source = some f) (ops : List (Op P)) (ho : copyOps now source destination move d = .ok ops)
    (n : ℕ) : exec d (ops.take n) source = some f ∨ exec d (ops.take n) destination = some f := by
  by_cases hn : source = destination
  · rw [copyOps, if_pos hn] at ho
    cases ho
  · rw [copyOps, if_neg hn, hf] at ho
    cases ho
    by_cases hl : n ≤ (pieceOps now destination 1 (pieces 0 f.content)).length + 1
    · left
      rw [take_split, Nat.sub_eq_zero_of_le hl, List.take_zero, List.append_nil]
      cases n with
      | zero => exact hf
      | succ m =>
        obtain ⟨t, e⟩ := exec_write now destination (pieces 0 f.content) d m
        rw [e, Function.update_of_ne hn, hf]
    · right
      obtain ⟨k, hk⟩ : ∃ k, n - ((pieceOps now destination 1 (pieces 0 f.content)).length + 1) = k + 1 :=
        ⟨n - ((pieceOps now destination 1 (pieces 0 f.content)).length + 1) - 1, by omega⟩
      rw [take_split, hk, List.take_of_length_le (by rw [List.length_cons]; omega), exec_append]
      obtain ⟨t, e⟩ := exec_whole now destination (pieces 0 f.content) d
      rw [e, flatten_pieces, List.take_succ_cons, exec, List.foldl_cons, step, Function.update_self,
        Function.update_idem, Option.map_some]
      cases move with
      | false => rw [if_neg (by simp), List.take_nil, List.foldl_nil, Function.update_self]
      | true =>
        cases k with
        | zero => rw [List.take_zero, List.foldl_nil, Function.update_self]
        | succ k =>
          rw [if_pos rfl, List.take_succ_cons, List.take_nil, List.foldl_cons, List.foldl_nil, step,
            Function.update_of_ne (Ne.symm hn), Function.update_self]

/-- **C101** (what cannot be copied).  A file that does not exist and a file onto itself are refused before
anything is written. -/
theorem C101_refused (now : ℕ → ℚ) (source destination : P) (move : Bool) (d : Disk P) :
    (source = destination → copy now source destination move d = .error .exception) ∧
    (source ≠ destination → d source = none →
      copy now source destination move d = .error .fileNotFound) := by
  refine ⟨fun h => by rw [copy, copyOps, if_pos h]; rfl, fun h hd => ?_⟩
  rw [copy, copyOps, if_neg h, hd]
  rfl

end Verif.Transfer
