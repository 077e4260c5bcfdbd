import Verif.Spec.Verify
import Verif.Props.Mirror
import Verif.Props.Arctic
import Verif.Props.UnixTime
/-!
C121: downloaded files are accepted exactly if they are those of the server, and are never changed.
-/
namespace Verif.Verify
open Verif Verif.Posix Verif.Mirror Verif.UnixTime Verif.Spec.Verify Verif.Spec.Arctic Verif.Spec.UnixTime

theorem interest_iff (currents : Bool) (e : Entry) :
    (e.isFile && interest currents e.name) = true ↔ Compared currents e := by
  simp only [Compared, interest, ext, Bool.and_eq_true, Bool.or_eq_true, List.isPrefixOf_iff_prefix]

theorem pieces_simple (n : Name) (h : '/' ∉ n) : pieces n = [n] := by
  induction n with
  | nil => rfl
  | cons c s ih =>
    have hc : c ≠ '/' := fun e => h (by simp [e])
    rw [pieces, if_neg hc, ih fun hs => h (List.mem_cons_of_mem _ hs)]

theorem join_simple (dir : Place) {n : Name} (h : Simple n) : joinpath dir n = dir ++ [n] := by
  obtain ⟨h1, h2, h3, h4⟩ := h
  have hp : parts n = [n] := by
    rw [parts, pieces_simple n h1]
    simp [h2, h3]
  rw [joinpath, if_neg (fun e => h1 (List.mem_of_mem_head? (by rw [e]; rfl))), hp, walk, List.foldl_cons,
    List.foldl_nil, if_neg h4]

/-- Disks with the same bytes. -/
theorem same_step (d : Disk Place) (p : Place) (t : ℚ) : SameFiles (step d (.utime p t)) d := by
  intro q
  rw [step]
  by_cases h : q = p
  · subst h
    rw [Function.update_self]
    cases d q <;> rfl
  · rw [Function.update_of_ne h]

theorem one_ok (w : World) (digest : List UInt8 → String) (hd : w.hash "sha1" = some digest) (dir : Place)
    (d d' : Disk Place) (e : Entry) :
    one w dir d e = .ok d' ↔ ∃ f t, d (joinpath dir e.name) = some f ∧ digest f.content = e.sha1 ∧
      w.time e.modified = some t ∧ d' = step d (.utime (joinpath dir e.name) t) := by
  rw [one]
  simp only [Transfer.hashOf]
  cases hf : d (joinpath dir e.name) with
  | none =>
    simp only [reduceCtorEq, false_and, exists_false, iff_false]
    change (if "" ≠ e.sha1 then (.error .exception : Except PyErr (Disk Place)) else _) ≠ _
    split
    · simp
    · simp
  | some f =>
    rw [hd]
    change (if digest f.content ≠ e.sha1 then (.error .exception : Except PyErr (Disk Place)) else _) = _ ↔ _
    by_cases hs : digest f.content = e.sha1
    · rw [if_neg (by simpa using hs)]
      simp only [reduceCtorEq, if_false, Option.some.injEq]
      cases ht : w.time e.modified with
      | none => simp
      | some t =>
        simp only [Except.ok.injEq, Option.some.injEq]
        constructor
        · rintro rfl
          exact ⟨f, t, rfl, hs, rfl, rfl⟩
        · rintro ⟨_, _, rfl, _, rfl, rfl⟩
          rfl
    · rw [if_pos hs]
      simp only [reduceCtorEq, Option.some.injEq, false_iff]
      rintro ⟨_, _, rfl, h, _⟩
      exact hs h

theorem loop_same (w : World) (dir : Place) (digest : List UInt8 → String) (hd : w.hash "sha1" = some digest)
    (l : List Entry) : ∀ d, SameFiles (loop w dir d l).1 d := by
  induction l with
  | nil => intro d q; rfl
  | cons e l ih =>
    intro d q
    rw [loop]
    cases h : one w dir d e with
    | error x => rfl
    | ok d' =>
      obtain ⟨f, t, _, _, _, rfl⟩ := (one_ok w digest hd dir d d' e).1 h
      exact (ih _ q).trans (same_step d _ t q)

theorem content_iff {d d' : Disk Place} (h : SameFiles d d') (p : Place) (P : List UInt8 → Prop) :
    (∃ f, d p = some f ∧ P f.content) ↔ ∃ f, d' p = some f ∧ P f.content := by
  have hp := h p
  constructor
  · rintro ⟨f, e, hf⟩
    rw [e, Option.map_some] at hp
    obtain ⟨g, hg, hc⟩ := Option.map_eq_some_iff.1 hp.symm
    exact ⟨g, hg, by rw [hc]; exact hf⟩
  · rintro ⟨f, e, hf⟩
    rw [e, Option.map_some] at hp
    obtain ⟨g, hg, hc⟩ := Option.map_eq_some_iff.1 hp
    exact ⟨g, hg, by rw [hc]; exact hf⟩

theorem loop_iff (w : World) (dir : Place) (digest : List UInt8 → String) (hd : w.hash "sha1" = some digest)
    (l : List Entry) : ∀ d, (loop w dir d l).2 = none ↔ ∀ e ∈ l,
      (∃ f, d (joinpath dir e.name) = some f ∧ digest f.content = e.sha1) ∧ (w.time e.modified).isSome := by
  induction l with
  | nil => intro d; simp [loop]
  | cons e l ih =>
    intro d
    rw [loop]
    cases h : one w dir d e with
    | error x =>
      simp only [reduceCtorEq, List.mem_cons, false_iff]
      intro hall
      obtain ⟨⟨f, hf, hs⟩, ht⟩ := hall e (Or.inl rfl)
      obtain ⟨t, ht⟩ := Option.isSome_iff_exists.1 ht
      rw [(one_ok w digest hd dir d _ e).2 ⟨f, t, hf, hs, ht, rfl⟩] at h
      simp at h
    | ok d' =>
      obtain ⟨f, t, hf, hs, ht, rfl⟩ := (one_ok w digest hd dir d d' e).1 h
      simp only [List.mem_cons, forall_eq_or_imp, ih]
      constructor
      · intro hall
        refine ⟨⟨⟨f, hf, hs⟩, by rw [ht]; rfl⟩, fun e' he' => ?_⟩
        obtain ⟨h1, h2⟩ := hall e' he'
        exact ⟨(content_iff (same_step d _ t) _ (fun b => digest b = e'.sha1)).1 h1, h2⟩
      · rintro ⟨_, hall⟩ e' he'
        obtain ⟨h1, h2⟩ := hall e' he'
        exact ⟨(content_iff (same_step d _ t) _ (fun b => digest b = e'.sha1)).2 h1, h2⟩

/-- **C121** (accepted).  The program ends without an exception exactly if every item that is compared is in
the directory with the digest that the server says, and its time can be read. -/
theorem C121_accepts (w : World) (dir : Place) (digest : List UInt8 → String)
    (hd : w.hash "sha1" = some digest) (currents : Bool) (d : Disk Place) (folder : List Entry)
    (hn : ∀ e ∈ folder, Compared currents e → Simple e.name) :
    (verify w dir currents d folder).2 = none ↔
      ∀ e ∈ folder, Compared currents e → Same digest d dir e ∧ (w.time e.modified).isSome := by
  rw [verify, loop_iff w dir digest hd]
  constructor
  · intro h e he hc
    have := h e (List.mem_filter.2 ⟨he, (interest_iff currents e).2 hc⟩)
    rwa [join_simple dir (hn e he hc)] at this
  · intro h e he
    obtain ⟨he, hc⟩ := List.mem_filter.1 he
    have hc := (interest_iff currents e).1 hc
    rw [join_simple dir (hn e he hc)]
    exact h e he hc

/-- **C121** (nothing is changed).  Whether it ends with an exception or not, the program changes no bytes and
creates and removes no file, and files that are not compared keep their times. -/
theorem C121_keeps (w : World) (dir : Place) (digest : List UInt8 → String)
    (hd : w.hash "sha1" = some digest) (currents : Bool) (d : Disk Place) (folder : List Entry) :
    SameFiles (verify w dir currents d folder).1 d ∧
    ∀ q, (∀ e ∈ folder, Compared currents e → Simple e.name ∧ q ≠ dir ++ [e.name]) →
      (verify w dir currents d folder).1 q = d q := by
  refine ⟨loop_same w dir digest hd _ d, fun q hq => ?_⟩
  have key : ∀ (l : List Entry) (d : Disk Place), (∀ e ∈ l, joinpath dir e.name ≠ q) →
      (loop w dir d l).1 q = d q := by
    intro l
    induction l with
    | nil => intros; rfl
    | cons e l ih =>
      intro d h
      rw [loop]
      cases ho : one w dir d e with
      | error x => rfl
      | ok d' =>
        obtain ⟨f, t, _, _, _, rfl⟩ := (one_ok w digest hd dir d d' e).1 ho
        refine (ih _ fun e' he' => h e' (List.mem_cons_of_mem _ he')).trans ?_
        rw [step, Function.update_of_ne (Ne.symm (h e List.mem_cons_self))]
  refine key _ d fun e he => ?_
  obtain ⟨he, hc⟩ := List.mem_filter.1 he
  obtain ⟨h1, h2⟩ := hq e he ((interest_iff currents e).1 hc)
  rw [join_simple dir h1]
  exact h2.symm

theorem loop_time (w : World) (dir : Place) (digest : List UInt8 → String) (hd : w.hash "sha1" = some digest)
    (a b : List Entry) (e : Entry) (hb : ∀ e' ∈ b, joinpath dir e'.name ≠ joinpath dir e.name) :
    ∀ d, (loop w dir d (a ++ e :: b)).2 = none → ∃ f t, (loop w dir d (a ++ e :: b)).1 (joinpath dir e.name) =
      some ⟨f, t⟩ ∧ w.time e.modified = some t := by
  have rest : ∀ (l : List Entry) (d : Disk Place) (q : Place), (∀ e' ∈ l, joinpath dir e'.name ≠ q) →
      (loop w dir d l).1 q = d q := by
    intro l
    induction l with
    | nil => intros; rfl
    | cons e l ih =>
      intro d q h
      rw [loop]
      cases ho : one w dir d e with
      | error x => rfl
      | ok d' =>
        obtain ⟨f, t, _, _, _, rfl⟩ := (one_ok w digest hd dir d d' e).1 ho
        refine (ih _ q fun e' he' => h e' (List.mem_cons_of_mem _ he')).trans ?_
        rw [step, Function.update_of_ne (Ne.symm (h e List.mem_cons_self))]
  induction a with
  | nil =>
    intro d h
    rw [List.nil_append, loop] at h ⊢
    cases ho : one w dir d e with
    | error x => rw [ho] at h; simp at h
    | ok d' =>
      obtain ⟨f, t, hf, _, ht, rfl⟩ := (one_ok w digest hd dir d d' e).1 ho
      refine ⟨f.content, t, ?_, ht⟩
      dsimp only
      rw [rest b _ _ hb, step, Function.update_self, hf]
      rfl
  | cons x a ih =>
    intro d h
    rw [List.cons_append, loop] at h ⊢
    cases ho : one w dir d x with
    | error y => rw [ho] at h; simp at h
    | ok d' =>
      rw [ho] at h
      exact ih d' h

/-- **C121** (times).  After a run without an exception every file that is compared has the time that is read
from what the server says, if the names in the folder are different; for a time at Greenwich these are its
seconds since 1970.  Missing: times with another zone; see `C121_time_false`. -/
theorem C121_time_partial (w : World) (dir : Place) (digest : List UInt8 → String)
    (hd : w.hash "sha1" = some digest) (currents : Bool) (d : Disk Place) (folder : List Entry)
    (hn : ∀ e ∈ folder, Compared currents e → Simple e.name)
    (hp : folder.Pairwise fun e e' => e.name ≠ e'.name)
    (h : (verify w dir currents d folder).2 = none) (e : Entry) (he : e ∈ folder) (hc : Compared currents e)
    (c : Civil) (hv : Valid c) (hz : c.offset = 0) (hm : e.modified = write formatBox c) :
    ∃ b, (verify w dir currents d folder).1 (dir ++ [e.name]) = some ⟨b, (utc c : ℤ)⟩ := by
  have hmem : e ∈ chosen currents folder := List.mem_filter.2 ⟨he, (interest_iff currents e).2 hc⟩
  have hpw : (chosen currents folder).Pairwise fun e e' => e.name ≠ e'.name := hp.filter _
  obtain ⟨a, b, hab⟩ := List.append_of_mem hmem
  rw [verify, hab] at h
  have hsimple : ∀ e' ∈ chosen currents folder, Simple e'.name := by
    intro e' he'
    obtain ⟨h1, h2⟩ := List.mem_filter.1 he'
    exact hn e' h1 ((interest_iff currents e').1 h2)
  obtain ⟨f, t, h1, h2⟩ := loop_time w dir digest hd a b e (by
    intro e' he'
    rw [join_simple dir (hsimple e' (by rw [hab]; simp [he'])), join_simple dir (hsimple e hmem)]
    intro heq
    rw [hab, List.pairwise_append] at hpw
    have := (List.pairwise_cons.1 hpw.2.1).1 e' he'
    exact this (List.cons.inj (List.append_cancel_left heq)).1.symm) d h
  rw [hm, World.time, C120_greenwich_partial _ _ c hv hz] at h2
  refine ⟨f, ?_⟩
  rw [verify, hab, ← join_simple dir (hsimple e hmem), h1, Option.some.inj h2]

/-- **C121** (refuted: times with a zone).  A file whose time the server gives with the offset of a zone gets a
time that is off by it. -/
theorem C121_time_false (w : World) (dir : Place) (digest : List UInt8 → String)
    (hd : w.hash "sha1" = some digest) (d : Disk Place) (f : File) (n : Name) (hn : Simple n)
    (hg : "grid".toList <+: n) (hf : d (dir ++ [n]) = some f) (c : Civil) (hv : Valid c) (hz : c.offset ≠ 0) :
    ∃ t : ℚ, verify w dir false d [⟨true, n, digest f.content, write formatBox c⟩] =
      (Function.update d (dir ++ [n]) (some ⟨f.content, t⟩), none) ∧ |t - utc c| = 60 * c.offset ∧ t ≠ utc c := by
  obtain ⟨t, h1, h2, h3⟩ := C120_offset_false w.zone w.dateutil c hv hz
  refine ⟨t, ?_, h2, h3⟩
  have hc : Compared false ⟨true, n, digest f.content, write formatBox c⟩ := ⟨rfl, Or.inl (Or.inl hg)⟩
  have ho := (one_ok w digest hd dir d _ ⟨true, n, digest f.content, write formatBox c⟩).2
    ⟨f, t, by rw [join_simple dir hn]; exact hf, rfl, h1, rfl⟩
  have hl : chosen false [⟨true, n, digest f.content, write formatBox c⟩] =
      [⟨true, n, digest f.content, write formatBox c⟩] :=
    List.filter_cons_of_pos (p := fun e : Entry => e.isFile && interest false e.name)
      ((interest_iff false _).2 hc)
  rw [verify, hl, loop, ho]
  dsimp only
  rw [loop, join_simple dir hn, step, hf]
  rfl

/-- **C121** (refuted: other files).  A file of the folder that is not one of the model but whose name begins
with `h` has to be there too: without it a complete model is refused. -/
theorem C121_other_false (w : World) (dir : Place) (digest : List UInt8 → String)
    (hd : w.hash "sha1" = some digest) (d : Disk Place) (folder : List Entry)
    (e : Entry) (he : e ∈ folder) (hf : e.isFile = true) (hh : e.name = "history.txt".toList)
    (hn : ∀ e ∈ folder, Compared false e → Simple e.name) (h0 : d (dir ++ [e.name]) = none) :
    (verify w dir false d folder).2 ≠ none := by
  intro h
  have hc : Compared false e := ⟨hf, Or.inl (Or.inr (by rw [hh]; exact ⟨"istory.txt".toList, by decide⟩))⟩
  obtain ⟨⟨f, h1, _⟩, _⟩ := (C121_accepts w dir digest hd false d folder hn).1 h e he hc
  rw [h0] at h1
  simp at h1

/-- A name of a file of a model. -/
example : Simple "grid_tpxo9_atlas_v5".toList ∧ "grid".toList <+: "grid_tpxo9_atlas_v5".toList := by
  refine ⟨⟨by decide, by decide, by decide, by decide⟩, ⟨"_tpxo9_atlas_v5".toList, by decide⟩⟩

/-- A folder and a disk that are accepted. -/
example (w : World) (digest : List UInt8 → String) (hd : w.hash "sha1" = some digest) :
    (verify w [] false (fun p => if p = ["grid_a".toList] then some ⟨[7], 0⟩ else none)
      [⟨true, "grid_a".toList, digest [7], write formatBox ⟨2024, 2, 29, 23, 5, 9, false, 0⟩⟩]).2 = none := by
  have hv : Valid ⟨2024, 2, 29, 23, 5, 9, false, 0⟩ := by constructor <;> decide
  rw [C121_accepts w [] digest hd]
  · intro e he _
    rw [List.mem_singleton] at he
    subst he
    refine ⟨⟨⟨[7], 0⟩, rfl, rfl⟩, ?_⟩
    rw [World.time, C120_greenwich_partial _ _ _ hv rfl]
    rfl
  · intro e he _
    rw [List.mem_singleton] at he
    subst he
    have key : Simple "grid_a".toList := ⟨by decide, by decide, by decide, by decide⟩
    exact key

end Verif.Verify
