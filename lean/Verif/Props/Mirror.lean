import Mathlib.Tactic.Linarith
import Mathlib.Tactic.NormNum
import Mathlib.Data.List.Induction
import Mathlib.Data.List.TakeWhile
import Verif.Spec.Mirror
/-!
C100: files of tide models are fetched completely, once, and again when they change.
-/
namespace Verif.Mirror
open Verif Verif.Posix Verif.Spec.Mirror

variable {P : Type} [DecidableEq P]

/-! ### One file -/

theorem newer_iff (s t : ℚ) : newer s t = true ↔ slot s ≤ slot t := by
  rw [newer, decide_eq_true_eq, Utilities.even, Utilities.even, slot, slot]
  omega

/-- What is at a place after a file has been looked at. -/
def afterAt (q : P) (o : Option File) (i : Item P) : Option File :=
  if i.path = q then (if o.any (fun f => newer i.mtime f.mtime) then o else some (file i)) else o

theorem exec_append (d : Disk P) (a b : List (Op P)) : exec d (a ++ b) = exec (exec d a) b :=
  List.foldl_append

theorem exec_pieces (now : ℕ → ℚ) (p : P) (l : List (List UInt8)) : ∀ (m k : ℕ) (d : Disk P) (f : File),
    d p = some f → ∃ t, (m = 0 ∨ l = [] ∨ ∃ s, t = now s) ∧ (m = 0 → t = f.mtime) ∧
      exec d ((pieceOps now p k l).take m) =
        Function.update d p (some ⟨f.content ++ (l.take m).flatten, if l = [] then f.mtime else t⟩) := by
  induction l with
  | nil =>
    intro m k d f h
    refine ⟨f.mtime, Or.inr (Or.inl rfl), fun _ => rfl, ?_⟩
    rw [pieceOps, List.take_nil, exec, List.foldl_nil, List.take_nil, List.flatten_nil, List.append_nil,
      if_pos rfl, ← h, Function.update_eq_self]
  | cons b l ih =>
    intro m k d f h
    cases m with
    | zero =>
      refine ⟨f.mtime, Or.inl rfl, fun _ => rfl, ?_⟩
      rw [List.take_zero, exec, List.foldl_nil, List.take_zero, List.flatten_nil, List.append_nil,
        if_neg (by simp), ← h, Function.update_eq_self]
    | succ m =>
      have hs : step d (.append p b (now k)) =
          Function.update d p (some ⟨f.content ++ b, now k⟩) := by rw [step, h]; rfl
      obtain ⟨t, ht, h0, e⟩ := ih m (k + 1) (Function.update d p (some ⟨f.content ++ b, now k⟩))
        ⟨f.content ++ b, now k⟩ (by rw [Function.update_self])
      refine ⟨if l = [] then now k else t, Or.inr (Or.inr ?_), fun h => by omega, ?_⟩
      · by_cases hl : l = []
        · exact ⟨k, by rw [if_pos hl]⟩
        · rw [if_neg hl]
          rcases ht with rfl | ht | ht
          · exact ⟨k, h0 rfl⟩
          · exact absurd ht hl
          · exact ht
      · rw [pieceOps, List.take_succ_cons, exec, List.foldl_cons, hs]
        rw [exec] at e
        rw [e, Function.update_idem, if_neg (List.cons_ne_nil b l), List.take_succ_cons, List.flatten_cons,
          List.append_assoc]

theorem length_pieces (now : ℕ → ℚ) (p : P) (l : List (List UInt8)) :
    ∀ k, (pieceOps now p k l).length = l.length := by
  induction l with
  | nil => intro k; rfl
  | cons b l ih => intro k; rw [pieceOps, List.length_cons, ih, List.length_cons]

/-- The steps for a file, cut off before the last. -/
theorem exec_cut (now : ℕ → ℚ) (k m : ℕ) (d : Disk P) (i : Item P) (hm : m ≤ i.pieces.length)
    (h : (d i.path).any (fun f => newer i.mtime f.mtime) = false) :
    ∃ s, exec d ((itemOps now k d i).take (m + 1)) =
      Function.update d i.path (some ⟨(i.pieces.take m).flatten, now s⟩) := by
  obtain ⟨t, ht, h0, e⟩ := exec_pieces now i.path i.pieces m (k + 1) (step d (.truncate i.path (now k)))
    ⟨[], now k⟩ (by rw [step, Function.update_self])
  have hs : ∃ s, (if i.pieces = [] then now k else t) = now s := by
    by_cases hl : i.pieces = []
    · exact ⟨k, if_pos hl⟩
    · rw [if_neg hl]
      rcases ht with rfl | ht | ⟨s, ht⟩
      · exact ⟨k, h0 rfl⟩
      · exact absurd ht hl
      · exact ⟨s, ht⟩
  obtain ⟨s, hs⟩ := hs
  refine ⟨s, ?_⟩
  rw [itemOps, h, if_neg (by simp), List.take_succ_cons,
    List.take_append_of_le_length (by rw [length_pieces]; exact hm), exec, List.foldl_cons]
  rw [exec] at e
  rw [e, step, Function.update_idem, hs, List.nil_append]

theorem exec_item (now : ℕ → ℚ) (k : ℕ) (d : Disk P) (i : Item P) :
    exec d (itemOps now k d i) = fun q => afterAt q (d q) i := by
  by_cases h : (d i.path).any (fun f => newer i.mtime f.mtime) = true
  · rw [itemOps, if_pos h, exec, List.foldl_nil]
    funext q
    rw [afterAt]
    split
    · next e => rw [← e, if_pos h]
    · rfl
  · rw [Bool.not_eq_true] at h
    obtain ⟨s, e⟩ := exec_cut now k i.pieces.length d i le_rfl h
    have hl : itemOps now k d i =
        (itemOps now k d i).take (i.pieces.length + 1) ++ [.utime i.path i.mtime] := by
      rw [itemOps, h, if_neg (by simp), List.take_succ_cons,
        List.take_append_of_le_length (by rw [length_pieces]), List.take_of_length_le
        (by rw [length_pieces]), List.cons_append]
    rw [hl, exec_append, e, exec, List.foldl_cons, List.foldl_nil, step, Function.update_self,
      Function.update_idem]
    funext q
    rw [afterAt]
    split
    · next e => rw [← e, Function.update_self, h, if_neg (by simp), List.take_length]; rfl
    · next e => rw [Function.update_of_ne (fun h => e h.symm)]

/-! ### The loop -/

theorem exec_run (now : ℕ → ℚ) (l : List (Item P)) : ∀ (k : ℕ) (d : Disk P) (q : P),
    exec d (runOps now k d l) q = l.foldl (afterAt q) (d q) := by
  induction l with
  | nil => intro k d q; rfl
  | cons i l ih =>
    intro k d q
    rw [runOps, exec_append, ih, exec_item, List.foldl_cons]

theorem run_at (now : ℕ → ℚ) (d : Disk P) (l : List (Item P)) (q : P) :
    run now d l q = l.foldl (afterAt q) (d q) := exec_run now l 0 d q

/-- There is a file that is not older than one of the archive. -/
def Fresh (i : Item P) (o : Option File) : Prop := ∃ f, o = some f ∧ slot i.mtime ≤ slot f.mtime

theorem fresh_any {i : Item P} {o : Option File} :
    Fresh i o ↔ o.any (fun f => newer i.mtime f.mtime) = true := by
  rw [Option.any_eq_true]
  constructor
  · rintro ⟨f, rfl, h⟩
    exact ⟨f, rfl, (newer_iff _ _).2 h⟩
  · rintro ⟨f, rfl, h⟩
    exact ⟨f, rfl, (newer_iff _ _).1 h⟩

theorem afterAt_fresh {i : Item P} {q : P} {o : Option File} (h : i.path = q → Fresh i o) :
    afterAt q o i = o := by
  rw [afterAt]
  split
  · next e => rw [if_pos (fresh_any.1 (h e))]
  · rfl

theorem afterAt_stale {i : Item P} {o : Option File} (h : ¬ Fresh i o) :
    afterAt i.path o i = some (file i) := by
  rw [afterAt, if_pos rfl, if_neg (fun e => h (fresh_any.2 e))]

theorem fresh_self (i : Item P) (o : Option File) : Fresh i (afterAt i.path o i) := by
  by_cases h : Fresh i o
  · rwa [afterAt_fresh fun _ => h]
  · rw [afterAt_stale h]
    exact ⟨_, rfl, le_rfl⟩

theorem fresh_keep {i j : Item P} {q : P} {o : Option File} (h : Fresh i o) :
    Fresh i (afterAt q o j) := by
  by_cases e : j.path = q
  · by_cases hj : Fresh j o
    · rwa [afterAt_fresh fun _ => hj]
    · rw [← e, afterAt_stale hj]
      obtain ⟨f, rfl, hf⟩ := h
      refine ⟨_, rfl, le_trans hf (not_lt.1 fun c => hj ⟨f, rfl, le_of_lt ?_⟩)⟩
      exact c
  · rwa [afterAt_fresh fun h => absurd h e]

theorem fresh_fold {i : Item P} {q : P} (l : List (Item P)) : ∀ {o : Option File}, Fresh i o →
    Fresh i (l.foldl (afterAt q) o) := by
  induction l with
  | nil => exact fun h => h
  | cons j l ih => exact fun h => ih (fresh_keep h)

theorem fresh_all {q : P} (l : List (Item P)) : ∀ (o : Option File), ∀ i ∈ l, i.path = q →
    Fresh i (l.foldl (afterAt q) o) := by
  induction l with
  | nil => intro o i h; simp at h
  | cons j l ih =>
    intro o i h e
    rcases List.mem_cons.1 h with rfl | h
    · subst e
      exact fresh_fold l (fresh_self i o)
    · exact ih _ i h e

theorem fold_fresh {q : P} (l : List (Item P)) : ∀ {o : Option File}, (∀ i ∈ l, i.path = q → Fresh i o) →
    l.foldl (afterAt q) o = o := by
  induction l with
  | nil => intros; rfl
  | cons j l ih =>
    intro o h
    rw [List.foldl_cons, afterAt_fresh (h j List.mem_cons_self)]
    exact ih fun i hi => h i (List.mem_cons_of_mem _ hi)

theorem fold_twice (q : P) (o : Option File) (a b : List (Item P)) :
    (a ++ b).foldl (afterAt q) (a.foldl (afterAt q) o) = (a ++ b).foldl (afterAt q) o := by
  rw [List.foldl_append, List.foldl_append, fold_fresh a (fun i hi e => fresh_all a o i hi e)]

theorem fold_other {q : P} (l : List (Item P)) (o : Option File) (h : ∀ i ∈ l, i.path ≠ q) :
    l.foldl (afterAt q) o = o := fold_fresh l fun i hi e => absurd e (h i hi)

theorem fold_one {l : List (Item P)} (hl : Distinct l) {i : Item P} (hi : i ∈ l) :
    ∀ o, l.foldl (afterAt i.path) o = afterAt i.path o i := by
  induction l with
  | nil => simp at hi
  | cons j l ih =>
    intro o
    obtain ⟨hj, hl⟩ := List.pairwise_cons.1 hl
    rw [List.foldl_cons]
    rcases List.mem_cons.1 hi with rfl | hi
    · exact fold_other l _ fun m hm e => hj m hm e.symm
    · rw [ih hl hi, afterAt_fresh (i := j) fun e => absurd e (hj i hi)]

/-- **C100** (a run).  After a run every file of the archive is on the disk with its bytes and its time,
unless there was already one that is not older (in intervals of two seconds), which stays; no other file is
touched. -/
theorem C100_run (now : ℕ → ℚ) (d : Disk P) (l : List (Item P)) (hl : Distinct l) :
    (∀ i ∈ l, (∀ f, d i.path = some f → slot f.mtime < slot i.mtime) →
      run now d l i.path = some (file i)) ∧
    (∀ i ∈ l, ∀ f, d i.path = some f → slot i.mtime ≤ slot f.mtime → run now d l i.path = some f) ∧
    ∀ q, (∀ i ∈ l, i.path ≠ q) → run now d l q = d q := by
  refine ⟨fun i hi h => ?_, fun i hi f h hs => ?_, fun q h => ?_⟩
  · rw [run_at, fold_one hl hi, afterAt_stale]
    rintro ⟨f, e, hf⟩
    exact absurd (h f e) (not_lt.2 hf)
  · rw [run_at, fold_one hl hi, afterAt_fresh fun _ => ⟨f, h, hs⟩, h]
  · rw [run_at, fold_other l _ h]

/-- **C100** (a second run).  A second run does nothing at all, also when files of the archive have the same
place. -/
theorem C100_again (now now' : ℕ → ℚ) (k : ℕ) (d : Disk P) (l : List (Item P)) :
    runOps now' k (run now d l) l = [] := by
  have key : ∀ (m : List (Item P)) (k : ℕ) (d : Disk P), (∀ i ∈ m, Fresh i (d i.path)) →
      runOps now' k d m = [] := by
    intro m
    induction m with
    | nil => intros; rfl
    | cons i m ih =>
      intro k d h
      have h0 : itemOps now' k d i = [] := by
        rw [itemOps, if_pos (fresh_any.1 (h i List.mem_cons_self))]
      rw [runOps, h0]
      exact ih _ _ fun j hj => h j (List.mem_cons_of_mem _ hj)
  refine key l k _ fun i hi => ?_
  rw [run_at]
  exact fresh_all l _ i hi rfl

/-- The disk after runs with several versions of an archive, each with a clock of its own. -/
def history (d : Disk P) (vs : List ((ℕ → ℚ) × List (Item P))) : Disk P :=
  vs.foldl (fun d v => run v.1 d v.2) d

theorem history_at (vs : List ((ℕ → ℚ) × List (Item P))) (hv : ∀ v ∈ vs, Distinct v.2) :
    ∀ (d : Disk P) (q : P), history d vs q = d q ∨
      ∃ v ∈ vs, ∃ i ∈ v.2, i.path = q ∧ history d vs q = some (file i) := by
  induction vs using List.reverseRecOn with
  | nil => exact fun d q => Or.inl rfl
  | append_singleton vs v ih =>
    intro d q
    have h : history d (vs ++ [v]) q = run v.1 (history d vs) v.2 q := by
      rw [history, List.foldl_append]; rfl
    rw [h]
    have hv' := hv v (by simp)
    by_cases hq : ∃ i ∈ v.2, i.path = q
    · obtain ⟨i, hi, rfl⟩ := hq
      by_cases hf : Fresh i (history d vs i.path)
      · have e : run v.1 (history d vs) v.2 i.path = history d vs i.path := by
          rw [run_at, fold_one hv' hi, afterAt_fresh fun _ => hf]
        rw [e]
        rcases ih (fun w hw => hv w (by simp [hw])) d i.path with e | ⟨w, hw, j, hj, hp, e⟩
        · exact Or.inl e
        · exact Or.inr ⟨w, by simp [hw], j, hj, hp, e⟩
      · refine Or.inr ⟨v, by simp, i, hi, rfl, ?_⟩
        rw [run_at, fold_one hv' hi, afterAt_stale hf]
    · have e : run v.1 (history d vs) v.2 q = history d vs q := by
        rw [run_at, fold_other]
        exact fun i hi e => hq ⟨i, hi, e⟩
      rw [e]
      rcases ih (fun w hw => hv w (by simp [hw])) d q with e | ⟨w, hw, j, hj, hp, e⟩
      · exact Or.inl e
      · exact Or.inr ⟨w, by simp [hw], j, hj, hp, e⟩

/-- **C100** (histories).  Runs with successive versions of an archive, in which a file that changes gets a
later time, leave the last version on the disk, if there were no other files at its places to begin with. -/
theorem C100_history (d : Disk P) (vs : List ((ℕ → ℚ) × List (Item P))) (now : ℕ → ℚ) (l : List (Item P))
    (hd : ∀ v ∈ vs ++ [(now, l)], Distinct v.2)
    (hf : (vs ++ [(now, l)]).Pairwise fun v w => Follows v.2 w.2)
    (h0 : ∀ i ∈ l, d i.path = none) : Holds (history d (vs ++ [(now, l)])) l := by
  intro i hi
  have e : history d (vs ++ [(now, l)]) i.path = run now (history d vs) l i.path := by
    rw [history, List.foldl_append]; rfl
  have hl : Distinct l := hd (now, l) (by simp)
  rw [e, run_at, fold_one hl hi]
  rcases history_at vs (fun v hv => hd v (by simp [hv])) d i.path with e | ⟨v, hv, j, hj, hp, e⟩
  · rw [e, h0 i hi]
    exact afterAt_stale fun ⟨f, h, _⟩ => by simp at h
  · rw [e]
    have := (List.pairwise_append.1 hf).2.2 v hv (now, l) (by simp) j hj i hi hp
    rcases this with h | h
    · rw [h]
      exact afterAt_fresh fun _ => ⟨_, rfl, le_rfl⟩
    · refine afterAt_stale ?_
      rintro ⟨f, hf, hs⟩
      rw [← Option.some.inj hf] at hs
      exact absurd h (not_lt.2 hs)

/-- **C100** (refuted: changes within two seconds).  A file that changes without its time leaving the
interval of two seconds is not fetched again: for times that differ by a second this depends on which is
even. -/
theorem C100_second_false (now : ℕ → ℚ) (n : ℕ) :
    let old : Item Unit := ⟨(), [[1]], 2 * n⟩
    let new : Item Unit := ⟨(), [[2]], 2 * n + 1⟩
    old.mtime < new.mtime ∧ run now (run now (fun _ => none) [old]) [new] () = some (file old) := by
  intro old new
  refine ⟨by simp only [old, new]; linarith, ?_⟩
  rw [run_at, run_at]
  have h1 : [old].foldl (afterAt ()) none = some (file old) := by
    change afterAt old.path none old = _
    exact afterAt_stale (i := old) fun ⟨f, h, _⟩ => by simp at h
  rw [h1]
  refine afterAt_fresh (i := new) (q := ()) fun _ => ⟨_, rfl, ?_⟩
  have e1 : slot (file old).mtime = n := by
    rw [slot]
    simp [file, old]
  have e2 : slot new.mtime = n := by
    rw [slot, Int.floor_eq_iff]
    simp only [new]
    constructor <;> push_cast <;> linarith
  rw [e1, e2]

/-! ### Runs that are cut off -/

theorem cut_run (now : ℕ → ℚ) (l : List (Item P)) : ∀ (n k : ℕ) (d : Disk P),
    (∃ a b, l = a ++ b ∧ ∀ q, exec d ((runOps now k d l).take n) q = a.foldl (afterAt q) (d q)) ∨
    ∃ a i b m s, l = a ++ i :: b ∧ m ≤ i.pieces.length ∧ ¬ Fresh i (a.foldl (afterAt i.path) (d i.path)) ∧
      ∀ q, exec d ((runOps now k d l).take n) q =
        Function.update (fun q => a.foldl (afterAt q) (d q)) i.path
          (some ⟨(i.pieces.take m).flatten, now s⟩) q := by
  induction l with
  | nil => exact fun n k d => Or.inl ⟨[], [], rfl, fun q => by rw [runOps, List.take_nil]; rfl⟩
  | cons i l ih =>
    intro n k d
    rw [runOps]
    by_cases hn : n < (itemOps now k d i).length
    · have ht : (itemOps now k d i ++ runOps now (k + (itemOps now k d i).length)
          (exec d (itemOps now k d i)) l).take n = (itemOps now k d i).take n :=
        List.take_append_of_le_length hn.le
      simp only [ht]
      cases n with
      | zero => exact Or.inl ⟨[], i :: l, rfl, fun q => by rw [List.take_zero]; rfl⟩
      | succ m =>
        have hf : (d i.path).any (fun f => newer i.mtime f.mtime) = false := by
          rw [← Bool.not_eq_true]
          intro h
          rw [itemOps, if_pos h] at hn
          simp at hn
        have hm : m ≤ i.pieces.length := by
          rw [itemOps, hf, if_neg (by simp), List.length_cons, List.length_append, length_pieces,
            List.length_singleton] at hn
          omega
        obtain ⟨s, e⟩ := exec_cut now k m d i hm hf
        refine Or.inr ⟨[], i, l, m, s, rfl, hm, ?_, fun q => by rw [e]; rfl⟩
        rw [List.foldl_nil, fresh_any, hf]
        simp
    · rw [not_lt] at hn
      have ht : ∀ q, exec d ((itemOps now k d i ++ runOps now (k + (itemOps now k d i).length)
          (exec d (itemOps now k d i)) l).take n) q = exec (exec d (itemOps now k d i))
          ((runOps now (k + (itemOps now k d i).length) (exec d (itemOps now k d i)) l).take
            (n - (itemOps now k d i).length)) q := by
        intro q
        rw [List.take_append, List.take_of_length_le hn, exec_append]
      simp only [ht]
      rcases ih (n - (itemOps now k d i).length) (k + (itemOps now k d i).length)
        (exec d (itemOps now k d i)) with ⟨a, b, hl, h⟩ | ⟨a, j, b, m, s, hl, hm, hj, h⟩
      · refine Or.inl ⟨i :: a, b, by rw [hl, List.cons_append], fun q => ?_⟩
        rw [h, exec_item, List.foldl_cons]
      · refine Or.inr ⟨i :: a, j, b, m, s, by rw [hl, List.cons_append], hm, ?_, fun q => ?_⟩
        · rw [exec_item] at hj
          exact hj
        · rw [h, exec_item]
          rfl

/-- **C100** (a run that is cut off, and another one).  Whenever a run is cut off, after another run all
files but at most one are as if there had been a single run that was not cut off; that one may hold only the
first pieces of its bytes.  Missing: that the second run repairs it; see `C100_crash_false`. -/
theorem C100_crash_partial (now now' : ℕ → ℚ) (n : ℕ) (d : Disk P) (l : List (Item P)) (hl : Distinct l) :
    (∀ q, run now' (crash now n d l) l q = run now d l q) ∨
    ∃ i ∈ l, (∀ q, q ≠ i.path → run now' (crash now n d l) l q = run now d l q) ∧
      ∃ m t, slot i.mtime ≤ slot t ∧
        run now' (crash now n d l) l i.path = some ⟨(i.pieces.take m).flatten, t⟩ := by
  simp only [run_at, crash]
  rcases cut_run now l n 0 d with ⟨a, b, e, h⟩ | ⟨a, i, b, m, s, e, hm, hi, h⟩
  · refine Or.inl fun q => ?_
    rw [h, e, fold_twice]
  · have hother : ∀ q, q ≠ i.path → l.foldl (afterAt q)
        (exec d ((runOps now 0 d l).take n) q) = l.foldl (afterAt q) (d q) := by
      intro q hq
      rw [h, Function.update_of_ne hq, e, fold_twice]
    have hmem : i ∈ l := by rw [e]; simp
    by_cases hs : slot i.mtime ≤ slot (now s)
    · refine Or.inr ⟨i, hmem, hother, m, now s, hs, ?_⟩
      rw [h, Function.update_self, fold_one hl hmem, afterAt_fresh fun _ => ⟨_, rfl, hs⟩]
    · refine Or.inl fun q => ?_
      by_cases hq : q = i.path
      · subst hq
        rw [h, Function.update_self, fold_one hl hmem, fold_one hl hmem, afterAt_stale, afterAt_stale]
        · have : a.foldl (afterAt i.path) (d i.path) = d i.path := by
            refine fold_other a _ fun j hj hp => ?_
            rw [Distinct, e] at hl
            exact (List.pairwise_append.1 hl).2.2 j hj i (by simp) hp
          rwa [this] at hi
        · rintro ⟨f, hf, hs'⟩
          rw [← Option.some.inj hf] at hs'
          exact hs hs'
      · exact hother q hq

/-- **C100** (a run that is cut off between files).  A run that completes what an earlier one has done of its
files gives the same as a single run. -/
theorem C100_resume (now now' now'' : ℕ → ℚ) (d : Disk P) (a b : List (Item P)) :
    run now' (run now d a) (a ++ b) = run now'' d (a ++ b) := by
  funext q
  rw [run_at, run_at, run_at, fold_twice]

theorem reach_item (now : ℕ → ℚ) (l : List (Item P)) (hl : Distinct l) (i : Item P) (hi : i ∈ l) :
    ∀ (k : ℕ) (d : Disk P) (m : ℕ), m ≤ i.pieces.length → ¬ Fresh i (d i.path) →
      ∃ n s, exec d ((runOps now k d l).take n) i.path = some ⟨(i.pieces.take m).flatten, now s⟩ := by
  induction l with
  | nil => simp at hi
  | cons j l ih =>
    intro k d m hm hf
    obtain ⟨hj, hl⟩ := List.pairwise_cons.1 hl
    rw [runOps]
    rcases List.mem_cons.1 hi with rfl | hi
    · have hf' : (d i.path).any (fun f => newer i.mtime f.mtime) = false := by
        rw [← Bool.not_eq_true]
        exact fun h => hf (fresh_any.2 h)
      obtain ⟨s, e⟩ := exec_cut now k m d i hm hf'
      refine ⟨m + 1, s, ?_⟩
      rw [List.take_append_of_le_length, e, Function.update_self]
      rw [itemOps, hf', if_neg (by simp), List.length_cons, List.length_append, length_pieces]
      simp
      omega
    · obtain ⟨n, s, e⟩ := ih hl hi (k + (itemOps now k d j).length) (exec d (itemOps now k d j)) m hm
        (by simpa only [exec_item, afterAt_fresh fun e => absurd e (hj i hi)] using hf)
      refine ⟨(itemOps now k d j).length + n, s, ?_⟩
      rw [List.take_append, List.take_of_length_le (by omega), exec_append]
      rw [show (itemOps now k d j).length + n - (itemOps now k d j).length = n by omega]
      exact e

/-- **C100** (refuted: interruptions are repaired).  Whichever file is to be written, after however many
pieces of it: a run can be cut off at a point such that no number of further runs changes the truncated file,
if the clock is not behind the time of the file in the archive. -/
theorem C100_crash_false (now : ℕ → ℚ) (d : Disk P) (l : List (Item P)) (hl : Distinct l) (i : Item P)
    (hi : i ∈ l) (hd : ∀ f, d i.path = some f → slot f.mtime < slot i.mtime)
    (hnow : ∀ s, slot i.mtime ≤ slot (now s)) (m : ℕ) (hm : m ≤ i.pieces.length) :
    ∃ n t, ∀ later : List (ℕ → ℚ),
      history (crash now n d l) (later.map fun now' => (now', l)) i.path =
        some ⟨(i.pieces.take m).flatten, t⟩ := by
  obtain ⟨n, s, e⟩ := reach_item now l hl i hi 0 d m hm (by
    rintro ⟨f, h, hs⟩
    exact absurd (hd f h) (not_lt.2 hs))
  refine ⟨n, now s, fun later => ?_⟩
  have key : ∀ (later : List (ℕ → ℚ)) (d' : Disk P),
      d' i.path = some ⟨(i.pieces.take m).flatten, now s⟩ →
      history d' (later.map fun now' => (now', l)) i.path =
        some ⟨(i.pieces.take m).flatten, now s⟩ := by
    intro later
    induction later with
    | nil => exact fun d' h => h
    | cons a later ih =>
      intro d' h
      refine ih _ ?_
      change run a d' l i.path = _
      rw [run_at, fold_one hl hi, h, afterAt_fresh fun _ => ⟨_, rfl, hnow s⟩]
  exact key later _ e

/-- The hypotheses hold for a file of two pieces, cut off after the first. -/
example : ∃ n t, ∀ later : List (ℕ → ℚ),
    history (crash (fun _ => 1000) n (fun _ => none) [(⟨(), [[1, 2], [3]], 7⟩ : Item Unit)])
      (later.map fun now' => (now', [⟨(), [[1, 2], [3]], 7⟩])) () = some ⟨[1, 2], t⟩ := by
  have := C100_crash_false (fun _ => 1000) (fun _ => none) [(⟨(), [[1, 2], [3]], 7⟩ : Item Unit)]
    (List.pairwise_singleton _ _) ⟨(), [[1, 2], [3]], 7⟩ (by simp) (by simp)
    (fun s => by simp only [slot]; norm_num) 1 (by simp)
  simpa using this

/-! ### Names -/

theorem pieces_ne (s : Name) : Posix.pieces s ≠ [] := by
  cases s with
  | nil => simp [Posix.pieces]
  | cons c s =>
    rw [Posix.pieces]
    split
    · simp
    · split <;> simp

theorem pieces_slash (a b : Name) : Posix.pieces (a ++ '/' :: b) = Posix.pieces a ++ Posix.pieces b := by
  induction a with
  | nil => simp [Posix.pieces]
  | cons c a ih =>
    rw [List.cons_append, Posix.pieces, ih, Posix.pieces]
    split
    · simp
    · cases h : Posix.pieces a with
      | nil => exact absurd h (pieces_ne a)
      | cons x t => simp

theorem parts_slash (a b : Name) : parts (a ++ '/' :: b) = parts a ++ parts b := by
  rw [parts, pieces_slash, List.filter_append, parts, parts]

theorem parts_end (a : Name) : parts (a ++ ['/']) = parts a := by
  rw [parts_slash]
  simp [parts, Posix.pieces]

theorem before_basename (p : Name) : before p ++ basename p = p := by
  rw [before, basename, ← List.reverse_append, List.takeWhile_append_dropWhile, List.reverse_reverse]

theorem before_end (p : Name) : before p = [] ∨ ∃ a, before p = a ++ ['/'] := by
  cases h : p.reverse.dropWhile (· ≠ '/') with
  | nil => exact Or.inl (by rw [before, h]; rfl)
  | cons c t =>
    refine Or.inr ⟨t.reverse, ?_⟩
    have this : c = '/' := by
      have hn := List.head?_dropWhile_not (fun c => decide (c ≠ '/')) p.reverse
      rw [h] at hn
      simpa using hn
    rw [before, h, List.reverse_cons, this]

theorem basename_slash (p : Name) : '/' ∉ basename p := by
  rw [basename, List.mem_reverse]
  intro h
  have := List.mem_takeWhile_imp h
  simp at this

theorem parts_split (p : Name) : parts p = parts (before p) ++ parts (basename p) := by
  conv_lhs => rw [← before_basename p]
  rcases before_end p with h | ⟨a, h⟩
  · rw [h]
    simp [parts, Posix.pieces]
  · rw [h, parts_end, List.append_assoc, List.singleton_append, parts_slash]

theorem rstrip_prefix (s : Name) : ∃ n, s = rstrip s ++ List.replicate n '/' := by
  refine ⟨(s.reverse.takeWhile (· = '/')).length, ?_⟩
  have h : s.reverse.takeWhile (· = '/') =
      List.replicate (s.reverse.takeWhile (· = '/')).length '/' := by
    rw [List.eq_replicate_iff]
    refine ⟨rfl, fun c hc => ?_⟩
    simpa using List.mem_takeWhile_imp hc
  conv_lhs => rw [← List.reverse_reverse s, ← List.takeWhile_append_dropWhile (p := (· = '/'))
    (l := s.reverse), List.reverse_append, h, List.reverse_replicate]
  rfl

theorem parts_replicate (a : Name) (n : ℕ) : parts (a ++ List.replicate n '/') = parts a := by
  induction n with
  | zero => simp
  | succ n ih => rw [List.replicate_succ', ← List.append_assoc, parts_end, ih]

theorem parts_head (p : Name) : parts (head p) = parts (before p) := by
  rw [head]
  split
  · rfl
  · obtain ⟨n, h⟩ := rstrip_prefix (before p)
    conv_rhs => rw [h, parts_replicate]

/-- Whether a path is absolute does not change when its last part is taken off. -/
theorem head_head (p : Name) : (head p).head? = some '/' ↔ p.head? = some '/' := by
  have hb : (before p).head? = some '/' ↔ p.head? = some '/' := by
    conv_rhs => rw [← before_basename p]
    rcases before_end p with h | ⟨a, h⟩
    · rw [h, List.nil_append]
      constructor
      · simp
      · intro e
        exact absurd (List.mem_of_mem_head? (by rw [e]; rfl)) (basename_slash p)
    · rw [h]
      cases a <;> simp
  rw [head]
  split
  · exact hb
  · next hn =>
    rw [← hb]
    obtain ⟨n, h⟩ := rstrip_prefix (before p)
    cases hr : rstrip (before p) with
    | nil =>
      rw [hr, List.nil_append] at h
      exact absurd (by rw [h]; simp) hn
    | cons c t => rw [h, hr]; simp

theorem walk_append (dir : Place) (a b : List Name) : walk dir (a ++ b) = walk (walk dir a) b :=
  List.foldl_append

/-- Joining the two parts of a path is joining the path. -/
theorem joinSplit_eq (dir : Place) (p : Name) : joinSplit dir p = joinpath dir p := by
  have h2 : (basename p).head? ≠ some '/' := fun e =>
    basename_slash p (List.mem_of_mem_head? (by rw [e]; rfl))
  rw [joinSplit, split, joinpath, joinpath, joinpath, if_neg h2, ← walk_append, parts_head, ← parts_split]
  simp only [head_head]

theorem walk_plain (l : List Name) (h : ∀ c ∈ l, c ≠ ['.', '.']) : ∀ dir, walk dir l = dir ++ l := by
  induction l with
  | nil => intro dir; simp [walk]
  | cons c l ih =>
    intro dir
    rw [walk, List.foldl_cons, if_neg (h c List.mem_cons_self)]
    have := ih (fun x hx => h x (List.mem_cons_of_mem _ hx)) (dir ++ [c])
    rw [walk] at this
    rw [this, List.append_assoc, List.singleton_append]

/-- A path that is not absolute, does not go to a parent directory and is not a directory itself. -/
def Plain (p : Name) : Prop := p.head? ≠ some '/' ∧ (∀ c ∈ parts p, c ≠ ['.', '.']) ∧ parts p ≠ []

theorem plain_join {p : Name} (h : Plain p) (dir : Place) : joinSplit dir p = dir ++ parts p := by
  rw [joinSplit_eq, joinpath, if_neg h.1, walk_plain _ h.2.1]

theorem plain_inside {p : Name} (h : Plain p) (dir : Place) : Inside dir (joinSplit dir p) := by
  rw [plain_join h]
  cases e : parts p with
  | nil => exact absurd e h.2.2
  | cons c s => exact ⟨c, s, rfl⟩

theorem pieces_gz (p : Name) : ∃ a t, Posix.pieces p = a ++ [t] ∧
    Posix.pieces (p ++ ext ".gz") = a ++ [t ++ ext ".gz"] := by
  induction p with
  | nil => exact ⟨[], [], rfl, by decide⟩
  | cons c p ih =>
    obtain ⟨a, t, h1, h2⟩ := ih
    rw [List.cons_append, Posix.pieces, Posix.pieces, h1, h2]
    split
    · exact ⟨[] :: a, t, rfl, rfl⟩
    · cases a with
      | nil => exact ⟨[], c :: t, rfl, rfl⟩
      | cons x a => exact ⟨(c :: x) :: a, t, rfl, rfl⟩

theorem plain_gz {p : Name} (h : Plain p) : Plain (p ++ ext ".gz") := by
  obtain ⟨a, t, h1, h2⟩ := pieces_gz p
  have hz : (t ++ ext ".gz").getLast? = some 'z' := by
    rw [show ext ".gz" = ['.', 'g', 'z'] by decide]
    simp
  have hne : ∀ c : Char, c ≠ 'z' → ∀ s : Name, t ++ ext ".gz" ≠ s ++ [c] := by
    intro c hc s e
    rw [e] at hz
    simp at hz
    exact hc hz
  refine ⟨?_, ?_, ?_⟩
  · obtain ⟨h, -, -⟩ := h
    cases p with
    | nil => decide
    | cons c p => simpa using h
  · intro c hc
    rw [parts, h2, List.filter_append, List.mem_append] at hc
    rcases hc with hc | hc
    · exact h.2.1 c (by rw [parts, h1, List.filter_append]; exact List.mem_append_left _ hc)
    · have := List.mem_of_mem_filter hc
      rw [List.mem_singleton] at this
      rw [this]
      exact hne '.' (by decide) ['.']
  · have : t ++ ext ".gz" ∈ parts (p ++ ext ".gz") := by
      rw [parts, h2, List.mem_filter]
      refine ⟨by simp, ?_⟩
      have e1 : t ++ ext ".gz" ≠ [] := by
        intro e
        rw [e] at hz
        simp at hz
      have e2 := hne '.' (by decide) []
      rw [List.nil_append] at e2
      simp [e1, e2]
    intro e
    rw [e] at this
    simp at this

/-- **C100** (places).  Members of an archive with names that are not absolute and do not go to a parent
directory are written inside the directory that is given, whether they are compressed or not.  Missing: other
names; see `C100_inside_false`. -/
theorem C100_inside_partial (e : Env) (dir : Place) (format : String) (gz : Bool) (ms : List Member)
    (h : ∀ m ∈ ms, Plain m.name) :
    (∀ i ∈ gotItems e dir format gz ms, Inside dir i.path) ∧
    ∀ i ∈ tarItems e dir false gz ms, Inside dir i.path := by
  constructor
  · intro i hi
    obtain ⟨m, hm, rfl⟩ := List.mem_map.1 hi
    have hp := h m (List.mem_of_mem_filter (List.mem_of_mem_filter hm))
    change Inside dir (gotPlace dir gz m.name)
    rw [gotPlace]
    split
    · exact plain_inside (plain_gz hp) dir
    · exact plain_inside hp dir
  · intro i hi
    obtain ⟨m, hm, rfl⟩ := List.mem_map.1 hi
    have hp := h m (List.mem_of_mem_filter hm)
    change Inside dir (joinSplit dir (fesOutput false gz m.name))
    rw [fesOutput]
    split
    · exact plain_inside (plain_gz hp) dir
    · exact plain_inside hp dir

example : Plain (ext "GOT4.8/grids_oceantide/q1.nc") := by
  refine ⟨by decide, by decide, by decide⟩

/-- **C100** (refuted: other places).  Wherever the directory is, a member with an absolute name is written
outside of it, and so is one whose name begins with a parent directory. -/
theorem C100_inside_false (e : Env) (d : Place) (a : Name) (format : String) (content : List UInt8) (t : ℚ) :
    ((gotItems e (d ++ [a]) format false [⟨ext "/etc/passwd", true, content, t⟩]).map (·.path)) =
      [[ext "etc", ext "passwd"]] ∧
    ((gotItems e (d ++ [a]) format false [⟨ext "../passwd", true, content, t⟩]).map (·.path)) =
      [d ++ [ext "passwd"]] ∧
    ((tarItems e (d ++ [a]) false false [⟨ext "/etc/passwd", true, content, t⟩]).map (·.path)) =
      [[ext "etc", ext "passwd"]] ∧
    ((tarItems e (d ++ [a]) false false [⟨ext "../passwd", true, content, t⟩]).map (·.path)) =
      [d ++ [ext "passwd"]] := by
  have k1 : ∀ s, gotSkips format ⟨ext "/etc/passwd", true, s, t⟩ = false := by
    intro s
    have e1 : suffix (ext "/etc/passwd") = [] := by decide
    have e2 : basename (ext "/etc/passwd") = ext "passwd" := by decide
    simp only [gotSkips, e1, e2]
    simp [ext, gotHidden]
  have k2 : ∀ s, gotSkips format ⟨ext "../passwd", true, s, t⟩ = false := by
    intro s
    have e1 : suffix (ext "../passwd") = [] := by decide
    have e2 : basename (ext "../passwd") = ext "passwd" := by decide
    simp only [gotSkips, e1, e2]
    simp [ext, gotHidden]
  have j1 : joinSplit (d ++ [a]) (ext "/etc/passwd") = [ext "etc", ext "passwd"] := by
    rw [joinSplit_eq, joinpath, if_pos (by decide)]
    decide
  have j2 : joinSplit (d ++ [a]) (ext "../passwd") = d ++ [ext "passwd"] := by
    rw [joinSplit_eq, joinpath, if_neg (by decide),
      show parts (ext "../passwd") = [['.', '.'], ext "passwd"] by decide, walk, List.foldl_cons,
      if_pos rfl, List.dropLast_concat, List.foldl_cons, if_neg (by decide), List.foldl_nil]
  refine ⟨?_, ?_, ?_, ?_⟩
  · simp only [gotItems, List.filter, k1, gotPlace, j1]
    simp [j1]
  · simp only [gotItems, List.filter, k2, gotPlace, j2]
    simp [j2]
  · simp [tarItems, fesOutput, j1]
  · simp [tarItems, fesOutput, j2]

/-! ### The programs -/

/-- **C100** (GOT models).  After a run every member of the archive that is a file of the wanted format is on
the disk, with its bytes or what `gzip` makes of them and its time, if there was no file before that is not
older. -/
theorem C100_got (e : Env) (now : ℕ → ℚ) (d : Disk Place) (dir : Place) (format : String) (gz : Bool)
    (ms : List Member) (hd : Distinct (gotItems e dir format gz ms)) (m : Member) (hm : m ∈ ms)
    (hf : m.isFile = true) (hs : gotSkips format m = false)
    (h0 : ∀ f, d (gotPlace dir gz m.name) = some f → slot f.mtime < slot m.mtime) :
    run now d (gotItems e dir format gz ms) (gotPlace dir gz m.name) =
      some ⟨if gz then e.gzip m.content else m.content, m.mtime⟩ := by
  have hi : (⟨gotPlace dir gz m.name, e.written gz m.content, m.mtime⟩ : Item Place) ∈
      gotItems e dir format gz ms :=
    List.mem_map.2 ⟨m, List.mem_filter.2 ⟨List.mem_filter.2 ⟨hm, hf⟩, by rw [hs]; rfl⟩, rfl⟩
  have := (C100_run now d _ hd).1 _ hi h0
  rw [this, file, bytes, Env.written, e.flatten_chunks]

theorem afterDot_eq {s x : Name} (hx : '.' ∉ x) : afterDot (s ++ '.' :: x) = x := by
  rw [afterDot, List.reverse_append, List.reverse_cons, List.append_assoc, List.takeWhile_append_of_pos,
    List.singleton_append, List.takeWhile_cons_of_neg (by simp), List.append_nil, List.reverse_reverse]
  intro a ha
  rw [decide_eq_true_eq]
  rintro rfl
  exact hx (List.mem_reverse.1 ha)

theorem toDot_eq {s x : Name} (hx : '.' ∉ x) : toDot (s ++ '.' :: x) = s ++ ['.'] := by
  rw [toDot, List.reverse_append, List.reverse_cons, List.append_assoc, List.dropWhile_append_of_pos,
    List.singleton_append, List.dropWhile_cons_of_neg (by simp), List.reverse_cons, List.reverse_reverse]
  intro a ha
  rw [decide_eq_true_eq]
  rintro rfl
  exact hx (List.mem_reverse.1 ha)

theorem basename_eq {d t : Name} (ht : '/' ∉ t) : basename (d ++ '/' :: t) = t := by
  rw [basename, List.reverse_append, List.reverse_cons, List.append_assoc, List.takeWhile_append_of_pos,
    List.singleton_append, List.takeWhile_cons_of_neg (by simp), List.append_nil, List.reverse_reverse]
  intro a ha
  rw [decide_eq_true_eq]
  rintro rfl
  exact ht (List.mem_reverse.1 ha)

theorem basename_self {t : Name} (ht : '/' ∉ t) : basename t = t := by
  rw [basename, List.takeWhile_eq_self_iff.2, List.reverse_reverse]
  intro a ha
  rw [decide_eq_true_eq]
  rintro rfl
  exact ht (List.mem_reverse.1 ha)

/-- The ending by which files are chosen and compressed is what follows the last dot of the last part of a name. -/
theorem C100_ending (d : Name) {s x : Name} (hs : ∃ c ∈ s, c ≠ '.') (h1 : '/' ∉ s) (h2 : '/' ∉ x) (hx : '.' ∉ x) :
    suffix (d ++ '/' :: (s ++ '.' :: x)) = '.' :: x ∧ suffix (s ++ '.' :: x) = '.' :: x := by
  have ht : '/' ∉ s ++ '.' :: x := by simp [h1, h2]
  have ha : (toDot (s ++ '.' :: x)).any (· ≠ '.') = true := by
    obtain ⟨c, hc, hn⟩ := hs
    rw [toDot_eq hx, List.any_eq_true]
    exact ⟨c, List.mem_append_left _ hc, by simpa using hn⟩
  constructor
  · rw [suffix, basename_eq ht, if_pos ha, afterDot_eq hx]
  · rw [suffix, basename_self ht, if_pos ha, afterDot_eq hx]

example : suffix "GOT4.10c/grids_oceantide/m2.v2.d".toList = ".d".toList := by decide +kernel

/-- **C100** (members that are skipped).  A file is skipped if it has the other format; else it is not skipped
unless the second character of its name is `_` or the second and third are `DS`. -/
theorem C100_skips_partial (format : String) (m : Member) (h1 : (basename m.name)[1]? ≠ some '_')
    (h2 : ((basename m.name)[1]?, (basename m.name)[2]?) ≠ (some 'D', some 'S')) :
    gotSkips format m = true ↔
      suffix m.name = ext ".nc" ∧ format = "ascii" ∨ suffix m.name = ext ".d" ∧ format = "netcdf" := by
  rw [gotSkips]
  split
  · next h => simp [h]
  · next h =>
    split
    · next h' => simp [h']
    · next h' =>
      have : ¬ gotHidden (basename m.name) = true := by
        unfold gotHidden
        split
        · next e => rw [e] at h2; simp at h2
        · next e => rw [e] at h1; simp at h1
        · simp
      constructor
      · exact fun h => absurd h this
      · rintro (c | c)
        · exact absurd c h
        · exact absurd c h'

/-- **C100** (refuted: only hidden files are skipped).  Besides the files with names that begin with `._`
and `.DS` those of all formats are skipped that begin with any character and then `_` or `DS`. -/
theorem C100_skips_false (format : String) (m : Member) (c : Char) (s : Name) (hc : c ≠ '\n')
    (h : basename m.name = c :: '_' :: s ∨ basename m.name = c :: 'D' :: 'S' :: s) :
    gotSkips format m = true := by
  rw [gotSkips]
  split
  · rfl
  · split
    · rfl
    · rcases h with h | h <;> simp [gotHidden, h, hc]

example : gotSkips "netcdf" ⟨ext "got/k_1.nc", true, [], 0⟩ = true := by decide

/-- **C100** (refuted: compressed files are named so).  With compression a member of an archive with any
other ending is compressed and keeps its name. -/
theorem C100_gzip_false (e : Env) (dir : Place) (flatten : Bool) (ms : List Member) (m : Member)
    (hm : m ∈ ms) (hf : m.isFile = true)
    (hs : suffix m.name ≠ ext ".asc" ∧ suffix m.name ≠ ext ".nc") :
    ∃ i ∈ tarItems e dir flatten true ms,
      i.path = joinSplit dir (if flatten then basename m.name else m.name) ∧ bytes i = e.gzip m.content := by
  refine ⟨_, List.mem_map.2 ⟨m, List.mem_filter.2 ⟨hm, hf⟩, rfl⟩, ?_, ?_⟩
  · simp only [fesOutput]
    rw [if_neg]
    rintro ⟨h | h, -⟩
    · exact hs.1 h
    · exact hs.2 h
  · rw [bytes, Env.written, e.flatten_chunks, if_pos rfl]

/-- **C100** (refuted: all members of an archive are kept).  Where directories are dropped, of two members
with the same name in different directories only one is on the disk afterwards. -/
theorem C100_flatten_false (e : Env) (now : ℕ → ℚ) (d : Disk Place) (dir : Place) (ms : List Member)
    (m m' : Member) (hm : m ∈ ms) (hm' : m' ∈ ms) (hf : m.isFile = true) (hf' : m'.isFile = true)
    (hb : basename m.name = basename m'.name) (hc : m.content ≠ m'.content) :
    ¬ Holds (run now d (tarItems e dir true false ms)) (tarItems e dir true false ms) := by
  intro h
  have h1 := h _ (List.mem_map.2 ⟨m, List.mem_filter.2 ⟨hm, hf⟩, rfl⟩)
  have h2 := h _ (List.mem_map.2 ⟨m', List.mem_filter.2 ⟨hm', hf'⟩, rfl⟩)
  have ep : fesOutput true false m.name = fesOutput true false m'.name := by simp [fesOutput, hb]
  simp only [ep] at h1
  rw [h1] at h2
  have := congrArg File.content (Option.some.inj h2)
  rw [file, file, bytes, bytes, Env.written, Env.written, e.flatten_chunks, e.flatten_chunks] at this
  exact hc (by simpa using this)

/-- **C100** (files of FES models).  Except for currents of FES2014 each file of a model is fetched, and it is
opened as an archive just if it is not a description. -/
theorem C100_table_partial (model : String) (load currents : Bool) (ps : List (List String))
    (h : fesPaths model load currents = some ps) (hc : ¬ (model = "FES2014" ∧ currents = true)) :
    ∃ l, fesRows model load currents = some l ∧ l.map (·.path) = ps ∧
      ∀ r ∈ l, r.tar = none ↔ ∃ s, ext (r.path.getLastD "") = ext "readme" ++ s := by
  have key : ∀ (l : List Row), (∀ r ∈ l, decide (r.tar = none) =
      (ext "readme").isPrefixOf (ext (r.path.getLastD ""))) →
      ∀ r ∈ l, r.tar = none ↔ ∃ s, ext (r.path.getLastD "") = ext "readme" ++ s := by
    intro l h r hr
    rw [← decide_eq_true_iff (p := r.tar = none), h r hr, List.isPrefixOf_iff_prefix]
    exact ⟨fun ⟨s, e⟩ => ⟨s, e.symm⟩, fun ⟨s, e⟩ => ⟨s, e.symm⟩⟩
  rw [fesRows, h]
  refine ⟨_, rfl, ?_⟩
  rw [fesPaths] at h
  split at h
  · next e =>
    subst e
    obtain rfl := Option.some.inj h
    clear h hc
    cases load <;> cases currents <;> exact ⟨by decide +kernel, key _ (by decide +kernel)⟩
  · split at h
    · next e =>
      subst e
      obtain rfl := Option.some.inj h
      clear h hc
      cases load <;> cases currents <;> exact ⟨by decide +kernel, key _ (by decide +kernel)⟩
    · split at h
      · next e =>
        subst e
        obtain rfl := Option.some.inj h
        clear h hc
        cases load <;> cases currents <;> exact ⟨by decide +kernel, key _ (by decide +kernel)⟩
      · split at h
        · next e =>
          subst e
          have hc' : currents = false := by
            cases currents
            · rfl
            · exact absurd ⟨rfl, rfl⟩ hc
          subst hc'
          obtain rfl := Option.some.inj h
          clear h hc
          cases load <;> exact ⟨by decide +kernel, key _ (by decide +kernel)⟩
        · simp at h

theorem fetchAll_append (e : Env) (r : Remote) (now : ℕ → ℚ) (dir : Place) (gz : Bool) (a b : List Row) :
    ∀ d, fetchAll e r now dir gz d (a ++ b) =
      match fetchAll e r now dir gz d a with
      | (d', none) => fetchAll e r now dir gz d' b
      | (d', some err) => (d', some err) := by
  induction a with
  | nil => intro d; rfl
  | cons x a ih =>
    intro d
    rw [List.cons_append, fetchAll, fetchAll]
    rcases fetch e r now dir gz d x with ⟨d', _ | err⟩
    · exact ih d'
    · rfl

/-- **C100** (refuted: currents of FES2014).  The program that is asked for currents of FES2014 as well
always ends with an exception, and the disk is as if it had not been asked for them: the description of the
currents is opened as an archive. -/
theorem C100_currents_false (e : Env) (r : Remote) (now : ℕ → ℚ) (dir : Place) (load gz : Bool)
    (d : Disk Place)
    (hr : ∀ b t, r.file ["fes2014a_currents", "readme_fes2014_currents_v1.2.txt"] = some (b, t) →
      r.untar "r" b = none) :
    (fesTar e r now dir "FES2014" load true gz d).1 = (fesTar e r now dir "FES2014" load false gz d).1 ∧
    (fesTar e r now dir "FES2014" load true gz d).2 ≠ none := by
  have h : ∃ l, fesRows "FES2014" load false = some l ∧ fesRows "FES2014" load true =
      some (l ++ [⟨["fes2014a_currents", "readme_fes2014_currents_v1.2.txt"], some "r", some false⟩]) := by
    cases load
    · exact ⟨_, rfl, by decide +kernel⟩
    · exact ⟨_, rfl, by decide +kernel⟩
  obtain ⟨l, h1, h2⟩ := h
  rw [fesTar, fesTar, h1, h2]
  dsimp only
  rw [fetchAll_append]
  rcases fetchAll e r now (dir ++ ["FES2014".toLower.toList]) gz d l with ⟨d', _ | err⟩
  · dsimp only
    have hx : fetch e r now (dir ++ ["FES2014".toLower.toList]) gz d'
        ⟨["fes2014a_currents", "readme_fes2014_currents_v1.2.txt"], some "r", some false⟩ =
        (d', some .exception) := by
      rw [fetch]
      dsimp only
      cases hf : r.file ["fes2014a_currents", "readme_fes2014_currents_v1.2.txt"] with
      | none => rfl
      | some bt =>
        obtain ⟨b, t⟩ := bt
        dsimp only
        rw [hr b t hf]
    rw [fetchAll, hx]
    exact ⟨rfl, by simp⟩
  · exact ⟨rfl, by simp⟩

end Verif.Mirror
