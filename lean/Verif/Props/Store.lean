import Verif.Spec.Store
import Verif.Props.Listing
/-!
C89, C90: spatial data written to netCDF4 and HDF5 files and read back.
-/
namespace Verif.Store
open Verif Verif.Listing Verif.Spec.Store

variable {K : Type}

/-! ### Dictionaries -/

theorem erase_lookup {V : Type} (k q : String) (d : Dict V) :
    (erase k d).lookup q = if q = k then none else d.lookup q := by
  induction d with
  | nil => simp [erase]
  | cons p d ih =>
    obtain ⟨a, v⟩ := p
    rw [erase] at ih ⊢
    rw [List.filter_cons]
    by_cases ha : a = k
    · subst ha
      simp only [bne_self_eq_false, Bool.false_eq_true, if_false]
      rw [ih, List.lookup]
      by_cases hq : q = a
      · rw [if_pos hq, if_pos hq]
      · rw [if_neg hq, if_neg hq, beq_false_of_ne hq]
    · have : (a != k) = true := by simpa using ha
      rw [if_pos this, List.lookup, List.lookup]
      by_cases hq : q = a
      · subst hq
        simp [ha]
      · rw [beq_false_of_ne hq]
        exact ih

theorem erase_distinct {V : Type} (k : String) (d : Dict V) (h : Distinct d) :
    Distinct (erase k d) := by
  rw [Distinct] at h ⊢
  exact h.sublist (List.filter_sublist.map _)

theorem erase_keys {V : Type} (k : String) (d : Dict V) (q : String) :
    q ∈ (erase k d).map Prod.fst ↔ q ≠ k ∧ q ∈ d.map Prod.fst := by
  rw [erase]
  simp only [List.mem_map, List.mem_filter, bne_iff_ne]
  constructor
  · rintro ⟨p, ⟨h1, h2⟩, rfl⟩
    exact ⟨h2, p, h1, rfl⟩
  · rintro ⟨h, p, h1, rfl⟩
    exact ⟨p, ⟨h1, h⟩, rfl⟩

theorem lookup_key {V : Type} {d : Dict V} {k : String} {v : V} (h : d.lookup k = some v) :
    k ∈ d.map Prod.fst := List.mem_map.2 ⟨_, lookup_mem h, rfl⟩

theorem lookup_nokey {V : Type} {d : Dict V} {k : String} (h : k ∉ d.map Prod.fst) :
    d.lookup k = none :=
  lookup_none.2 fun v hv => h (List.mem_map.2 ⟨_, hv, rfl⟩)

/-! ### Attributes -/

theorem filterMap_lookup {V : Type} (l : List String) (f : String → Option V) (q : String) :
    (l.filterMap fun a => (f a).map fun v => (a, v)).lookup q = if q ∈ l then f q else none := by
  induction l with
  | nil => simp
  | cons a l ih =>
    rw [List.filterMap_cons]
    cases ha : f a with
    | none =>
      simp only [Option.map_none]
      rw [ih]
      by_cases hq : q = a
      · subst hq
        simp [ha]
      · simp [hq]
    | some v =>
      simp only [Option.map_some]
      rw [List.lookup]
      by_cases hq : q = a
      · subst hq
        simp [ha]
      · rw [beq_false_of_ne hq]
        dsimp only
        rw [ih]
        simp [hq]

theorem found_hdf5 (attrs : Dict (Value K)) (attr : String) (h : attr ∈ kept) :
    (foundHDF5 attrs).lookup attr = attrs.lookup attr := by
  rw [foundHDF5, filterMap_lookup]
  exact if_pos h

/-- Attributes of which none begins like a name that the readers look for. -/
def Clear (attrs : Dict (Value K)) : Prop :=
  ∀ attr ∈ kept, ∀ n ∈ attrs.map Prod.fst, begins attr n = true → n = attr

theorem begins_self (s : String) : begins s s = true := by
  rw [begins, List.isPrefixOf_iff_prefix]
  exact List.prefix_refl _

theorem filter_one {attrs : Dict (Value K)} (hd : Distinct attrs) (hc : Clear attrs)
    {attr : String} (h : attr ∈ kept) :
    only (attrs.filter fun p => begins attr p.1) = attrs.lookup attr := by
  induction attrs with
  | nil => rfl
  | cons p attrs ih =>
    obtain ⟨a, v⟩ := p
    rw [Distinct, List.map_cons, List.nodup_cons] at hd
    have hc' : Clear attrs := fun x hx n hn => hc x hx n (by simp [List.mem_cons, hn])
    rw [List.filter_cons, List.lookup]
    by_cases hb : begins attr a = true
    · have ha : a = attr := hc attr h a (by simp) hb
      subst ha
      have : attrs.filter (fun p => begins a p.1) = [] := by
        rw [List.filter_eq_nil_iff]
        intro q hq hb'
        have := hc a h q.1 (List.mem_map.2 ⟨q, List.mem_cons_of_mem _ hq, rfl⟩) hb'
        exact hd.1 (List.mem_map.2 ⟨q, hq, this⟩)
      simp only [hb, if_true, this, beq_self_eq_true]
      rfl
    · have hne : attr ≠ a := fun e => hb (e ▸ begins_self a)
      rw [if_neg hb, beq_false_of_ne hne]
      exact ih hd.2 hc'

theorem found_netcdf {attrs : Dict (Value K)} (hd : Distinct attrs) (hc : Clear attrs)
    {attr : String} (h : attr ∈ kept) : (foundNetCDF attrs).lookup attr = attrs.lookup attr := by
  rw [foundNetCDF, filterMap_lookup wanted fun a => only (attrs.filter fun p => begins a p.1),
    filter_one hd hc h]
  exact if_pos h

/-! ### Writing all variables of a netCDF4 file -/

theorem putVariables_ok (standard : K) (choose : List Nat → Bool → List (String × Nat))
    (output : Dict (Arr K)) (hd : Distinct output) (atts : Atts K)
    (h : ∀ k v, (k, v) ∈ output → ∃ a w a', atts.lookup k = some a ∧
      putVariable standard choose v a = .ok (w, a')) :
    ∃ file after, putVariables standard choose output atts = .ok (file, after) ∧
      (∀ k v, (k, v) ∈ output → ∃ a w a', atts.lookup k = some a ∧
        putVariable standard choose v a = .ok (w, a') ∧ file.lookup k = some w ∧
        after.lookup k = some a') ∧
      ∀ k, k ∉ output.map Prod.fst → after.lookup k = atts.lookup k := by
  induction output generalizing atts with
  | nil => exact ⟨[], atts, rfl, by simp, fun _ _ => rfl⟩
  | cons p output ih =>
    obtain ⟨key, val⟩ := p
    rw [Distinct, List.map_cons, List.nodup_cons] at hd
    obtain ⟨a, w, a', h1, h2⟩ := h key val (by simp)
    obtain ⟨file, after, e, i1, i2⟩ := ih hd.2 (put key a' atts) (by
      intro k v hkv
      obtain ⟨b, x, b', j1, j2⟩ := h k v (by simp [hkv])
      have hk : k ≠ key := fun e => hd.1 (List.mem_map.2 ⟨_, hkv, e⟩)
      exact ⟨b, x, b', by rw [lookup_put, if_neg hk, j1], j2⟩)
    refine ⟨(key, w) :: file, after, ?_, ?_, ?_⟩
    · simp only [putVariables, h1, h2, e, ok_bind]
    · intro k v hkv
      rcases List.mem_cons.1 hkv with k1 | k1
      · cases k1
        refine ⟨a, w, a', h1, h2, by simp [List.lookup], ?_⟩
        rw [i2 key hd.1, lookup_put, if_pos rfl]
      · obtain ⟨b, x, b', j1, j2, j3, j4⟩ := i1 k v k1
        have hk : k ≠ key := fun e => hd.1 (List.mem_map.2 ⟨_, k1, e⟩)
        refine ⟨b, x, b', ?_, j2, ?_, j4⟩
        · rw [lookup_put, if_neg hk] at j1
          exact j1
        · rw [List.lookup, beq_false_of_ne hk]
          exact j3
    · intro k hk
      rw [List.map_cons, List.mem_cons, not_or] at hk
      rw [i2 k hk.2, lookup_put, if_neg hk.1]

theorem putVariables_mem (standard : K) (choose : List Nat → Bool → List (String × Nat))
    (output : Dict (Arr K)) (hd : Distinct output) (atts : Atts K) (r : Dict (Var K) × Atts K)
    (h : putVariables standard choose output atts = .ok r) (k : String) (v : Arr K)
    (hk : (k, v) ∈ output) : ∃ a s, atts.lookup k = some a ∧
      putVariable standard choose v a = .ok s := by
  induction output generalizing atts r with
  | nil => simp at hk
  | cons p output ih =>
    obtain ⟨key, val⟩ := p
    rw [Distinct, List.map_cons, List.nodup_cons] at hd
    rw [putVariables] at h
    cases h1 : atts.lookup key with
    | none => rw [h1] at h; cases h
    | some a =>
      rw [h1] at h
      dsimp only at h
      cases h2 : putVariable standard choose val a with
      | error e => rw [h2] at h; cases h
      | ok s =>
        obtain ⟨w, a'⟩ := s
        rw [h2, ok_bind] at h
        rcases List.mem_cons.1 hk with k1 | k1
        · cases k1
          exact ⟨a, _, h1, h2⟩
        · dsimp only at h
          cases h3 : putVariables standard choose output (put key a' atts) with
          | error e => rw [h3] at h; cases h
          | ok s =>
            obtain ⟨b, t, j1, j2⟩ := ih hd.2 _ _ h3 k1
            have hk : k ≠ key := fun e => hd.1 (List.mem_map.2 ⟨_, k1, e⟩)
            rw [lookup_put, if_neg hk] at j1
            exact ⟨b, t, j1, j2⟩

/-- Data that can be told from what stands for nothing: the attributes of each variable have
different names that are clear to the reader, a fill value is a number, and no value in sight is
the fill value (or the standard one of the library when there is none). -/
structure Sound (standard : K) (output : Dict (Arr K)) (atts : Atts K) : Prop where
  names : Distinct output
  attributes : ∀ k v, (k, v) ∈ output → ∃ a, atts.lookup k = some a ∧ Distinct a ∧ Clear a ∧
    ((a.lookup "_FillValue" = none ∧ ∀ p ∈ v.vals, p.2 = false → p.1 ≠ standard) ∨
      ∃ f, a.lookup "_FillValue" = some (.num f) ∧ ∀ p ∈ v.vals, p.2 = false → p.1 ≠ f)

/-- Whether a variable has a fill value. -/
def filled (atts : Atts K) (k : String) : Bool :=
  match atts.lookup k with
  | some a => (a.lookup "_FillValue").isSome
  | none => false

theorem seen_stored [DecidableEq K] (f : K) (shape shape' : List Nat) (vals : List (K × Bool))
    (h : ∀ p ∈ vals, p.2 = false → p.1 ≠ f) :
    seen ⟨shape, (vals.map fun p => if p.2 then f else p.1).map fun x => (x, decide (x = f))⟩ =
      seen ⟨shape', vals⟩ := by
  rw [seen, seen]
  dsimp only
  rw [List.map_map, List.map_map]
  refine List.map_congr_left fun p hp => ?_
  obtain ⟨x, m⟩ := p
  cases m with
  | true => simp
  | false => simp [h _ hp rfl]

theorem spread_same (a : Arr K) : spread a.shape a = .ok a.vals := by rw [spread, if_pos rfl]

/-- One variable whose dimensions have the lengths of its array. -/
theorem variable_back [DecidableEq K] (standard : K)
    (choose : List Nat → Bool → List (String × Nat)) (key : String) (v : Arr K)
    (a : Dict (Value K)) (hd : Distinct a) (hc : Clear a)
    (hs : (a.lookup "_FillValue" = none ∧ ∀ p ∈ v.vals, p.2 = false → p.1 ≠ standard) ∨
      ∃ f, a.lookup "_FillValue" = some (.num f) ∧ ∀ p ∈ v.vals, p.2 = false → p.1 ≠ f)
    (hfit : (choose v.shape (a.lookup "_FillValue").isSome).map Prod.snd = v.shape) :
    ∃ w, putVariable standard choose v a = .ok (w, erase "_FillValue" a) ∧
      w.dims = (choose v.shape (a.lookup "_FillValue").isSome).map Prod.fst ∧
      (∀ attr ∈ kept, (foundNetCDF w.attrs).lookup attr = a.lookup attr) ∧
      ∃ got, mask key (fetch standard w) (foundNetCDF w.attrs) = .ok got ∧ Same got v := by
  have fill : "_FillValue" ∈ kept := by decide
  have here : ∀ w : Var K, Distinct w.attrs → Clear w.attrs →
      (∀ attr ∈ kept, w.attrs.lookup attr = a.lookup attr) →
      ∀ attr ∈ kept, (foundNetCDF w.attrs).lookup attr = a.lookup attr :=
    fun w h1 h2 h3 attr h4 => by rw [found_netcdf h1 h2 h4, h3 attr h4]
  rcases hs with ⟨hn, hv⟩ | ⟨f, hf, hv⟩
  · rw [hn] at hfit
    have he : erase "_FillValue" a = a := by
      rw [erase, List.filter_eq_self]
      intro p hp
      rw [bne_iff_ne]
      rintro e
      have := lookup_none.1 hn p.2
      exact this (e ▸ hp)
    have hw := here ⟨(choose v.shape false).map Prod.fst, v.shape,
      v.vals.map fun p => if p.2 then standard else p.1, a⟩ hd hc (fun _ _ => rfl)
    refine ⟨⟨(choose v.shape false).map Prod.fst, v.shape,
      v.vals.map fun p => if p.2 then standard else p.1, a⟩, ?_, ?_, hw, ?_⟩
    · simp only [putVariable, hn]
      rw [show (choose v.shape false).map Prod.snd = v.shape from hfit, spread_same, ok_bind, he]
    · rw [hn]; rfl
    · refine ⟨fetch standard ⟨(choose v.shape false).map Prod.fst, v.shape,
        v.vals.map fun p => if p.2 then standard else p.1, a⟩, ?_, ?_⟩
      · rw [mask]
        split
        · rw [hw _ fill, hn]
        · rfl
      · refine ⟨rfl, ?_⟩
        rw [fetch]
        simp only [hn]
        exact seen_stored standard _ _ _ hv
  · rw [hf] at hfit
    have hl : ∀ q, (("_FillValue", Value.num f) :: erase "_FillValue" a).lookup q =
        a.lookup q := by
      intro q
      rw [List.lookup]
      by_cases hq : q = "_FillValue"
      · subst hq
        rw [hf]
        rfl
      · rw [beq_false_of_ne hq]
        dsimp only
        rw [erase_lookup, if_neg hq]
    have hd' : Distinct (("_FillValue", Value.num f) :: erase "_FillValue" a) := by
      rw [Distinct, List.map_cons, List.nodup_cons]
      exact ⟨fun k => ((erase_keys _ _ _).1 k).1 rfl, erase_distinct _ _ hd⟩
    have hc' : Clear (("_FillValue", Value.num f) :: erase "_FillValue" a) := by
      intro attr h1 n h2 h3
      rw [List.map_cons, List.mem_cons] at h2
      rcases h2 with rfl | h2
      · exact hc attr h1 _ (lookup_key hf) h3
      · exact hc attr h1 n ((erase_keys _ _ _).1 h2).2 h3
    have hw := here ⟨(choose v.shape true).map Prod.fst, v.shape,
      v.vals.map fun p => if p.2 then f else p.1,
      ("_FillValue", Value.num f) :: erase "_FillValue" a⟩ hd' hc' (fun q _ => hl q)
    refine ⟨⟨(choose v.shape true).map Prod.fst, v.shape,
      v.vals.map fun p => if p.2 then f else p.1,
      ("_FillValue", Value.num f) :: erase "_FillValue" a⟩, ?_, ?_, hw, ?_⟩
    · simp only [putVariable, hf]
      rw [show (choose v.shape true).map Prod.snd = v.shape from hfit, spread_same, ok_bind]
    · rw [hf]; rfl
    · refine ⟨⟨v.shape, (v.vals.map fun p => if p.2 then f else p.1).map
        fun x => (x, decide (x = f))⟩, ?_, rfl, seen_stored f _ _ _ hv⟩
      have hfetch : fetch standard ⟨(choose v.shape true).map Prod.fst, v.shape,
          v.vals.map fun p => if p.2 then f else p.1,
          ("_FillValue", Value.num f) :: erase "_FillValue" a⟩ =
          ⟨v.shape, (v.vals.map fun p => if p.2 then f else p.1).map
            fun x => (x, decide (x = f))⟩ := by
        rw [fetch]
        simp only [List.lookup_cons_self]
      rw [hfetch, mask]
      split
      · rw [hw _ fill, hf]
        dsimp only
        rw [List.map_map]
        rfl
      · rfl

theorem forall₂_map_right {A B : Type} {R : A → B → Prop} {f : A → B} {l : List A}
    (h : ∀ x ∈ l, R x (f x)) : List.Forall₂ R l (l.map f) := by
  induction l with
  | nil => exact .nil
  | cons x l ih => exact .cons (h x (by simp)) (ih fun y hy => h y (by simp [hy]))

theorem pyMap_forall₂ {A B : Type} {R : A → B → Prop} {f : A → Except PyErr B} {l : List A}
    (h : ∀ x ∈ l, ∃ y, f x = .ok y ∧ R x y) : ∃ ys, pyMap f l = .ok ys ∧ List.Forall₂ R l ys := by
  induction l with
  | nil => exact ⟨[], rfl, .nil⟩
  | cons x l ih =>
    obtain ⟨y, h1, h2⟩ := h x (by simp)
    obtain ⟨ys, h3, h4⟩ := ih fun z hz => h z (by simp [hz])
    exact ⟨y :: ys, by simp only [pyMap, h1, h3], .cons h2 h4⟩

/-- The attribute a caller gave. -/
def given (atts : Atts K) (k attr : String) : Option (Value K) :=
  (atts.lookup k).bind fun a => a.lookup attr

/-- Variables whose dimensions have the lengths of their arrays come back; the caller's attributes
have lost their fill values. -/
theorem all_back [DecidableEq K] (standard : K) (choose : List Nat → Bool → List (String × Nat))
    (output : Dict (Arr K)) (atts : Atts K) (h : Sound standard output atts)
    (hfit : ∀ k v, (k, v) ∈ output →
      (choose v.shape (filled atts k)).map Prod.snd = v.shape) :
    ∃ file after, putVariables standard choose output atts = .ok (file, after) ∧
      (∀ k v, (k, v) ∈ output → ∃ a, atts.lookup k = some a ∧
        after.lookup k = some (erase "_FillValue" a)) ∧
      (∀ k v, (k, v) ∈ output → ∃ w, file.lookup k = some w ∧
        w.dims = (choose v.shape (filled atts k)).map Prod.fst) ∧
      ∀ mapping : Dict String, (∀ m ∈ mapping, m.2 ∈ output.map Prod.fst) →
        ∃ read, fromNetCDF standard mapping file = .ok read ∧
          Returns output (given atts) mapping read := by
  have back : ∀ key k v, (k, v) ∈ output → ∃ a, atts.lookup k = some a ∧
      ∃ w, putVariable standard choose v a = .ok (w, erase "_FillValue" a) ∧
      w.dims = (choose v.shape (filled atts k)).map Prod.fst ∧
      (∀ attr ∈ kept, (foundNetCDF w.attrs).lookup attr = a.lookup attr) ∧
      ∃ got, mask key (fetch standard w) (foundNetCDF w.attrs) = .ok got ∧ Same got v := by
    intro key k v hkv
    obtain ⟨a, h1, h2, h3, h4⟩ := h.attributes k v hkv
    have e : filled atts k = (a.lookup "_FillValue").isSome := by rw [filled, h1]
    have hf := hfit k v hkv
    rw [e] at hf ⊢
    exact ⟨a, h1, variable_back standard choose key v a h2 h3 h4 hf⟩
  obtain ⟨file, after, e, i1, -⟩ := putVariables_ok standard choose output h.names atts (by
    intro k v hkv
    obtain ⟨a, h1, w, h2, -⟩ := back "" k v hkv
    exact ⟨a, w, _, h1, h2⟩)
  refine ⟨file, after, e, ?_, ?_, ?_⟩
  · intro k v hkv
    obtain ⟨a, w, a', j1, j2, -, j4⟩ := i1 k v hkv
    obtain ⟨b, h1, x, h2, -⟩ := back "" k v hkv
    rw [j1] at h1
    cases h1
    rw [j2] at h2
    cases h2
    exact ⟨a, j1, j4⟩
  · intro k v hkv
    obtain ⟨a, w, a', j1, j2, j3, -⟩ := i1 k v hkv
    obtain ⟨b, h1, x, h2, h3, -⟩ := back "" k v hkv
    rw [j1] at h1
    cases h1
    rw [j2] at h2
    cases h2
    exact ⟨w, j3, h3⟩
  · intro mapping hm
    rw [fromNetCDF]
    refine pyMap_forall₂ fun m hmm => ?_
    obtain ⟨⟨k, v⟩, hkv, hk⟩ := List.mem_map.1 (hm m hmm)
    obtain ⟨a, w, a', j1, j2, j3, -⟩ := i1 k v hkv
    obtain ⟨b, h1, x, h2, -, h4, got, h5, h6⟩ := back m.1 k v hkv
    rw [j1] at h1
    cases h1
    rw [j2] at h2
    cases h2
    dsimp only at hk
    subst hk
    refine ⟨(m.1, got, foundNetCDF w.attrs), ?_, rfl, v, hkv, h6, ?_⟩
    · simp only [j3, h5, ok_bind]
    · intro attr ha
      rw [h4 attr ha, given, j1]
      rfl

/-! ### The three types of data -/

/-- Drift data: all arrays are as long as the times or scalars, and those with a fill value are not
scalars. -/
structure Drift (output : Dict (Arr K)) (atts : Atts K) (n : Nat) : Prop where
  time : ∃ t, output.lookup "time" = some t ∧ t.shape = [n]
  shapes : ∀ k v, (k, v) ∈ output → v.shape = [n] ∨ (v.shape = [] ∧ filled atts k = false)

/-- Gridded data: a data field has three axes, and the arrays have the shape of the grid, of a map
or of one of its axes or are scalars; those with a fill value have three axes. -/
structure Gridded (output : Dict (Arr K)) (atts : Atts K) (ny nx nt : Nat) : Prop where
  field : ∃ k v, (k, v) ∈ output ∧ v.shape.length = 3 ∧ k ∉ reserved
  shapes : ∀ k v, (k, v) ∈ output → v.shape = [ny, nx, nt] ∨
    (v.shape ∈ [[ny, nx], [ny], [nx], [nt], []] ∧ filled atts k = false)

/-- Time series at stations. -/
structure Stations (output : Dict (Arr K)) (atts : Atts K) (ns nt : Nat) : Prop where
  field : ∃ k v, (k, v) ∈ output ∧ v.shape.length = 2 ∧ k ∉ reserved
  shapes : ∀ k v, (k, v) ∈ output → v.shape = [ns, nt] ∨
    (v.shape ∈ [[ns], [nt], []] ∧ filled atts k = false)

theorem reference_ok (n : Nat) (output : Dict (Arr K)) (hd : Distinct output) (s : List Nat)
    (hf : ∃ k v, (k, v) ∈ output ∧ v.shape.length = n ∧ k ∉ reserved)
    (hs : ∀ k v, (k, v) ∈ output → v.shape.length = n → v.shape = s) :
    reference n output = .ok s := by
  rw [reference]
  have all : ∀ x ∈ ((sortedSet ((output.map Prod.fst).filter fun k => !reserved.contains k)).filterMap
      fun k => (output.lookup k).map Arr.shape).filter (fun s => decide (s.length = n)), x = s := by
    intro x hx
    rw [List.mem_filter, List.mem_filterMap] at hx
    obtain ⟨⟨k, -, hk⟩, hl⟩ := hx
    rw [Option.map_eq_some_iff] at hk
    obtain ⟨v, hv, rfl⟩ := hk
    exact hs k v (lookup_mem hv) (by simpa using hl)
  obtain ⟨k, v, hkv, hl, hk⟩ := hf
  have mem : v.shape ∈ ((sortedSet ((output.map Prod.fst).filter fun k => !reserved.contains k)).filterMap
      fun k => (output.lookup k).map Arr.shape).filter (fun s => decide (s.length = n)) := by
    rw [List.mem_filter, List.mem_filterMap]
    refine ⟨⟨k, ?_, by rw [lookup_of_mem hd hkv]; rfl⟩, by simpa using hl⟩
    have := (sortedSet_spec ((output.map Prod.fst).filter fun k => !reserved.contains k)).2 k
    refine this.2 (List.mem_filter.2 ⟨List.mem_map.2 ⟨_, hkv, rfl⟩, by simpa using hk⟩)
  split
  · next x l e =>
    rw [all x (by rw [e]; simp)]
  · next e =>
    rw [e] at mem
    simp at mem

theorem drift_eq (standard : K) {output : Dict (Arr K)} {atts : Atts K} {n : Nat}
    (h : Drift output atts n) :
    toNetCDF standard "drift" output atts = putVariables standard (driftDims n) output atts := by
  obtain ⟨t, h1, h2⟩ := h.time
  rw [toNetCDF, if_pos rfl, drift, h1]
  dsimp only
  rw [h2]
  rfl

theorem grid_eq (standard : K) {output : Dict (Arr K)} {atts : Atts K} {ny nx nt : Nat}
    (hd : Distinct output) (h : Gridded output atts ny nx nt) :
    toNetCDF standard "grid" output atts =
      putVariables standard (gridDims ny nx nt) output atts := by
  have hr : reference 3 output = .ok [ny, nx, nt] := by
    refine reference_ok 3 output hd _ h.field fun k v hkv hl => ?_
    rcases h.shapes k v hkv with e | ⟨e, -⟩
    · exact e
    · simp only [List.mem_cons, List.not_mem_nil, or_false] at e
      rcases e with e | e | e | e | e <;> rw [e] at hl <;> simp at hl
  rw [toNetCDF, if_neg (by decide), if_pos rfl, grid, hr, ok_bind]
  rfl

theorem series_eq (standard : K) {output : Dict (Arr K)} {atts : Atts K} {ns nt : Nat}
    (hd : Distinct output) (h : Stations output atts ns nt) :
    toNetCDF standard "time series" output atts =
      putVariables standard (seriesDims ns nt) output atts := by
  have hr : reference 2 output = .ok [ns, nt] := by
    refine reference_ok 2 output hd _ h.field fun k v hkv hl => ?_
    rcases h.shapes k v hkv with e | ⟨e, -⟩
    · exact e
    · simp only [List.mem_cons, List.not_mem_nil, or_false] at e
      rcases e with e | e | e <;> rw [e] at hl <;> simp at hl
  rw [toNetCDF, if_neg (by decide), if_neg (by decide), if_pos rfl, series, hr, ok_bind]
  rfl

theorem drift_fit {output : Dict (Arr K)} {atts : Atts K} {n : Nat} (h : Drift output atts n)
    (k : String) (v : Arr K) (hkv : (k, v) ∈ output) :
    (driftDims n v.shape (filled atts k)).map Prod.snd = v.shape := by
  rcases h.shapes k v hkv with e | ⟨e, f⟩
  · rw [e, driftDims]
    split <;> simp
  · rw [e, f]
    rfl

theorem grid_fit {output : Dict (Arr K)} {atts : Atts K} {ny nx nt : Nat}
    (h : Gridded output atts ny nx nt) (k : String) (v : Arr K) (hkv : (k, v) ∈ output) :
    (gridDims ny nx nt v.shape (filled atts k)).map Prod.snd = v.shape := by
  rcases h.shapes k v hkv with e | ⟨e, f⟩
  · rw [e, gridDims]
    split <;> rfl
  · rw [f]
    simp only [List.mem_cons, List.not_mem_nil, or_false] at e
    rcases e with e | e | e | e | e
    · rw [e]; rfl
    · rw [e, gridDims]; simp
    · rw [e, gridDims]; simp; split <;> simp [*]
    · rw [e, gridDims]; simp; split
      · simp [*]
      · split <;> simp [*]
    · rw [e]; rfl

theorem series_fit {output : Dict (Arr K)} {atts : Atts K} {ns nt : Nat}
    (h : Stations output atts ns nt) (k : String) (v : Arr K) (hkv : (k, v) ∈ output) :
    (seriesDims ns nt v.shape (filled atts k)).map Prod.snd = v.shape := by
  rcases h.shapes k v hkv with e | ⟨e, f⟩
  · rw [e, seriesDims]
    split <;> rfl
  · rw [f]
    simp only [List.mem_cons, List.not_mem_nil, or_false] at e
    rcases e with e | e | e
    · rw [e, seriesDims]; simp; split <;> simp [*]
    · rw [e, seriesDims]; simp
    · rw [e]; rfl

/-- What the writers promise: the data are written and come back under whatever names are asked
for. -/
def Back [DecidableEq K] (standard : K) (output : Dict (Arr K)) (atts : Atts K)
    (written : Except PyErr (Dict (Var K) × Atts K)) : Prop :=
  ∃ file after, written = .ok (file, after) ∧
    ∀ mapping : Dict String, (∀ m ∈ mapping, m.2 ∈ output.map Prod.fst) →
      ∃ read, fromNetCDF standard mapping file = .ok read ∧
        Returns output (given atts) mapping read

/-- C89: drift data in a netCDF4 file come back with their masks and attributes. -/
theorem C89_drift [DecidableEq K] (standard : K) (output : Dict (Arr K)) (atts : Atts K) (n : Nat)
    (hs : Sound standard output atts) (h : Drift output atts n) :
    Back standard output atts (toNetCDF standard "drift" output atts) := by
  obtain ⟨file, after, e, -, -, r⟩ := all_back standard _ output atts hs (drift_fit h)
  exact ⟨file, after, (drift_eq standard h).trans e, r⟩

/-- C89: gridded data in a netCDF4 file come back with their masks and attributes. -/
theorem C89_grid [DecidableEq K] (standard : K) (output : Dict (Arr K)) (atts : Atts K)
    (ny nx nt : Nat) (hs : Sound standard output atts) (h : Gridded output atts ny nx nt) :
    Back standard output atts (toNetCDF standard "grid" output atts) := by
  obtain ⟨file, after, e, -, -, r⟩ := all_back standard _ output atts hs (grid_fit h)
  exact ⟨file, after, (grid_eq standard hs.names h).trans e, r⟩

/-- C89: time series in a netCDF4 file come back with their masks and attributes. -/
theorem C89_series [DecidableEq K] (standard : K) (output : Dict (Arr K)) (atts : Atts K)
    (ns nt : Nat) (hs : Sound standard output atts) (h : Stations output atts ns nt) :
    Back standard output atts (toNetCDF standard "time series" output atts) := by
  obtain ⟨file, after, e, -, -, r⟩ := all_back standard _ output atts hs (series_fit h)
  exact ⟨file, after, (series_eq standard hs.names h).trans e, r⟩

/-- C89: the axes of a grid have the dimensions of their names when the lengths differ.  Missing:
grids with equal lengths. -/
theorem C89_axes_partial [DecidableEq K] (standard : K) (output : Dict (Arr K)) (atts : Atts K)
    (ny nx nt : Nat) (hs : Sound standard output atts) (h : Gridded output atts ny nx nt)
    (h1 : ny ≠ nx) (h2 : ny ≠ nt) (h3 : nx ≠ nt) :
    ∃ file after, toNetCDF standard "grid" output atts = .ok (file, after) ∧
      ∀ k v, (k, v) ∈ output → ∃ w, file.lookup k = some w ∧
        (v.shape = [ny, nx, nt] → w.dims = ["y", "x", "time"]) ∧
        (v.shape = [ny, nx] → w.dims = ["y", "x"]) ∧ (v.shape = [ny] → w.dims = ["y"]) ∧
        (v.shape = [nx] → w.dims = ["x"]) ∧ (v.shape = [nt] → w.dims = ["time"]) ∧
        (v.shape = [] → w.dims = []) := by
  obtain ⟨file, after, e, -, d, -⟩ := all_back standard _ output atts hs (grid_fit h)
  refine ⟨file, after, (grid_eq standard hs.names h).trans e, fun k v hkv => ?_⟩
  obtain ⟨w, w1, w2⟩ := d k v hkv
  have low : v.shape ≠ [ny, nx, nt] → filled atts k = false := by
    intro hne
    rcases h.shapes k v hkv with e | ⟨-, f⟩
    · exact absurd e hne
    · exact f
  refine ⟨w, w1, fun e => ?_, fun e => ?_, fun e => ?_, fun e => ?_, fun e => ?_, fun e => ?_⟩
  · rw [w2, e, gridDims]; split <;> rfl
  all_goals
    rw [w2, low (by rw [e]; simp), e, gridDims]
    simp [h1, h2, h3, Ne.symm h1, Ne.symm h2, Ne.symm h3]

/-- C89 is false of square grids: the axis `x` has the dimension `y`, whatever the data. -/
theorem C89_axes_false [DecidableEq K] (standard : K) (output : Dict (Arr K)) (atts : Atts K)
    (n nt : Nat) (hs : Sound standard output atts) (h : Gridded output atts n n nt)
    (x : Arr K) (hx : ("x", x) ∈ output) (hl : x.shape = [n]) :
    ∃ file after w, toNetCDF standard "grid" output atts = .ok (file, after) ∧
      file.lookup "x" = some w ∧ w.dims = ["y"] := by
  obtain ⟨file, after, e, -, d, -⟩ := all_back standard _ output atts hs (grid_fit h)
  obtain ⟨w, w1, w2⟩ := d "x" x hx
  refine ⟨file, after, w, (grid_eq standard hs.names h).trans e, w1, ?_⟩
  have low : filled atts "x" = false := by
    rcases h.shapes "x" x hx with e | ⟨-, f⟩
    · rw [hl] at e; simp at e
    · exact f
  rw [w2, low, hl, gridDims]
  simp

/-- C89 is false of axes with a fill value: unless it is as long as the times, a file with such an
axis is not written. -/
theorem C89_filled_false [DecidableEq K] (standard : K) (output : Dict (Arr K)) (atts : Atts K)
    (ny nx nt : Nat) (hd : Distinct output) (h : reference 3 output = .ok [ny, nx, nt])
    (k : String) (v : Arr K) (hk : (k, v) ∈ output) (l : Nat) (hl : v.shape = [l]) (hne : l ≠ nt)
    (hf : filled atts k = true) :
    ∀ r, toNetCDF standard "grid" output atts ≠ .ok r := by
  intro r hr
  rw [toNetCDF, if_neg (by decide), if_pos rfl, grid, h, ok_bind] at hr
  obtain ⟨a, s, h1, h2⟩ := putVariables_mem standard _ output hd atts r hr k v hk
  rw [filled, h1] at hf
  dsimp only at hf
  rw [putVariable] at h2
  cases hv : a.lookup "_FillValue" with
  | none => rw [hv] at hf; cases hf
  | some y =>
    rw [hv] at h2
    cases y with
    | text s => cases h2
    | num f =>
      have : spread ([ny, nx, nt]) v = .error .valueError := by
        rw [spread, hl, if_neg (by simp), if_neg]
        rw [List.isSuffixOf_iff_suffix]
        rintro ⟨pre, e⟩
        have := congrArg (fun l => l.getLast?) e
        simp at this
        exact hne this
      change (spread [ny, nx, nt] v >>= _) = _ at h2
      rw [this] at h2
      cases h2

/-- C89: writing takes the fill values out of the caller's attributes and nothing else. -/
theorem C89_attributes [DecidableEq K] (standard : K) (output : Dict (Arr K)) (atts : Atts K)
    (n : Nat) (hs : Sound standard output atts) (h : Drift output atts n) :
    ∃ file after, toNetCDF standard "drift" output atts = .ok (file, after) ∧
      ∀ k v, (k, v) ∈ output → ∀ attr, given after k attr =
        if attr = "_FillValue" then none else given atts k attr := by
  obtain ⟨file, after, e, i, -, -⟩ := all_back standard _ output atts hs (drift_fit h)
  refine ⟨file, after, (drift_eq standard h).trans e, fun k v hkv attr => ?_⟩
  obtain ⟨a, a1, a2⟩ := i k v hkv
  rw [given, given, a1, a2]
  exact erase_lookup _ _ _

/-- C89 is false of a second file with the same attributes: no variable of it has a fill value. -/
theorem C89_second_false [DecidableEq K] (standard : K) (output : Dict (Arr K)) (atts : Atts K)
    (n : Nat) (hs : Sound standard output atts) (h : Drift output atts n) :
    ∃ file after, toNetCDF standard "drift" output atts = .ok (file, after) ∧
      ∀ r, toNetCDF standard "drift" output after = .ok r →
        ∀ k v, (k, v) ∈ output → ∃ w, r.1.lookup k = some w ∧
          w.attrs.lookup "_FillValue" = none := by
  obtain ⟨file, after, e, i, -, -⟩ := all_back standard _ output atts hs (drift_fit h)
  refine ⟨file, after, (drift_eq standard h).trans e, fun r hr => ?_⟩
  obtain ⟨t, h1, h2⟩ := h.time
  have e2 : toNetCDF standard "drift" output after =
      putVariables standard (driftDims n) output after := by
    rw [toNetCDF, if_pos rfl, drift, h1]
    dsimp only
    rw [h2]
    rfl
  rw [e2] at hr
  obtain ⟨file', after', e', i', -⟩ := putVariables_ok standard (driftDims n) output hs.names after
    (by
      intro k v hkv
      obtain ⟨a, s, a1, a2⟩ := putVariables_mem standard _ output hs.names after r hr k v hkv
      exact ⟨a, s.1, s.2, a1, a2⟩)
  rw [hr] at e'
  cases e'
  intro k v hkv
  obtain ⟨a, w, a', j1, j2, j3, -⟩ := i' k v hkv
  obtain ⟨b, b1, b2⟩ := i k v hkv
  rw [j1] at b2
  have hb := Option.some.inj b2
  refine ⟨w, j3, ?_⟩
  have hn : a.lookup "_FillValue" = none := by rw [hb, erase_lookup, if_pos rfl]
  rw [putVariable, hn] at j2
  dsimp only at j2
  cases hsp : spread ((driftDims n v.shape false).map Prod.snd) v with
  | error x => rw [hsp] at j2; cases j2
  | ok x =>
    rw [hsp, ok_bind] at j2
    cases j2
    exact hn

/-- C89 is false of other types of data: the file that is written has no variables. -/
theorem C89_type_false (standard : K) (dataType : String) (output : Dict (Arr K)) (atts : Atts K)
    (h : dataType ∉ ["drift", "grid", "time series"]) :
    toNetCDF standard dataType output atts = .ok ([], atts) := by
  simp only [List.mem_cons, List.not_mem_nil, or_false, not_or] at h
  rw [toNetCDF, if_neg h.1, if_neg h.2.1, if_neg h.2.2]

/-- C89 is false of variables with two attributes whose names begin alike, as `units` and `units_long`: the
attribute is not read. -/
theorem C89_ambiguous_false [DecidableEq K] (standard : K) (key k attr : String) (file : Dict (Var K))
    (v : Var K) (hv : file.lookup k = some v) (r : Arr K) (attrs : Dict (Value K))
    (hr : fromNetCDF standard [(key, k)] file = .ok [(key, r, attrs)])
    (h : 2 ≤ (v.attrs.filter fun p => begins attr p.1).length) : attrs.lookup attr = none := by
  rw [fromNetCDF, pyMap, pyMap] at hr
  dsimp only at hr
  rw [hv] at hr
  dsimp only at hr
  have e : attrs = foundNetCDF v.attrs := by
    cases hm : mask key (fetch standard v) (foundNetCDF v.attrs) with
    | error e => rw [hm] at hr; cases hr
    | ok a =>
      rw [hm] at hr
      cases hr
      rfl
  rw [e, foundNetCDF]
  have h0 : only (v.attrs.filter fun p => begins attr p.1) = none := by
    cases hl : v.attrs.filter fun p => begins attr p.1 with
    | nil => rfl
    | cons a l =>
      cases l with
      | nil => rw [hl] at h; simp at h
      | cons b l => rfl
  induction wanted with
  | nil => rfl
  | cons w l ih =>
    rw [List.filterMap_cons]
    by_cases hw : attr = w
    · subst hw
      rw [h0]
      exact ih
    · cases only (v.attrs.filter fun p => begins w p.1) with
      | none => exact ih
      | some x =>
        rw [Option.map_some, List.lookup_cons, beq_eq_false_iff_ne.2 hw]
        exact ih

/-! ### HDF5 -/

theorem hdf5_ok (zero : K) (output : Dict (Arr K)) (hd : Distinct output) (atts : Atts K)
    (file : Dict (Var K)) (hnew : ∀ k ∈ output.map Prod.fst, file.lookup k = none)
    (h : ∀ k v, (k, v) ∈ output → ∃ a w a', atts.lookup k = some a ∧
      putDataset zero v a = .ok (w, a')) :
    ∃ file' after, toHDF5 zero output atts file = .ok (file', after) ∧
      (∀ k v, (k, v) ∈ output → ∃ a w a', atts.lookup k = some a ∧
        putDataset zero v a = .ok (w, a') ∧ file'.lookup k = some w ∧
        after.lookup k = some a') ∧
      ∀ k, k ∉ output.map Prod.fst → after.lookup k = atts.lookup k ∧
        file'.lookup k = file.lookup k := by
  induction output generalizing atts file with
  | nil => exact ⟨file, atts, rfl, by simp, fun _ _ => ⟨rfl, rfl⟩⟩
  | cons p output ih =>
    obtain ⟨key, val⟩ := p
    rw [Distinct, List.map_cons, List.nodup_cons] at hd
    obtain ⟨a, w, a', h1, h2⟩ := h key val (by simp)
    obtain ⟨file', after, e, i1, i2⟩ := ih hd.2 (put key a' atts) (put key w file) (by
      intro k hk
      have hne : k ≠ key := fun e => hd.1 (e ▸ hk)
      rw [lookup_put, if_neg hne]
      exact hnew k (by rw [List.map_cons]; exact List.mem_cons_of_mem _ hk)) (by
      intro k v hkv
      obtain ⟨b, x, b', j1, j2⟩ := h k v (by simp [hkv])
      have hk : k ≠ key := fun e => hd.1 (List.mem_map.2 ⟨_, hkv, e⟩)
      exact ⟨b, x, b', by rw [lookup_put, if_neg hk, j1], j2⟩)
    have hkey : file.lookup key = none := hnew key (by simp)
    refine ⟨file', after, ?_, ?_, ?_⟩
    · rw [toHDF5]
      simp only [hkey, h1, h2, ok_bind]
      exact e
    · intro k v hkv
      rcases List.mem_cons.1 hkv with k1 | k1
      · cases k1
        refine ⟨a, w, a', h1, h2, ?_, ?_⟩
        · rw [(i2 key hd.1).2, lookup_put, if_pos rfl]
        · rw [(i2 key hd.1).1, lookup_put, if_pos rfl]
      · obtain ⟨b, x, b', j1, j2, j3, j4⟩ := i1 k v k1
        have hk : k ≠ key := fun e => hd.1 (List.mem_map.2 ⟨_, k1, e⟩)
        rw [lookup_put, if_neg hk] at j1
        exact ⟨b, x, b', j1, j2, j3, j4⟩
    · intro k hk
      rw [List.map_cons, List.mem_cons, not_or] at hk
      obtain ⟨j1, j2⟩ := i2 k hk.2
      rw [j1, j2, lookup_put, if_neg hk.1, lookup_put, if_neg hk.1]
      exact ⟨rfl, rfl⟩

/-- Data for a HDF5 file: every variable has attributes, and a fill value is a number and not that
of a scalar. -/
structure Plain (output : Dict (Arr K)) (atts : Atts K) : Prop where
  names : Distinct output
  attributes : ∀ k v, (k, v) ∈ output → ∃ a, atts.lookup k = some a ∧
    (a.lookup "_FillValue" = none ∨
      ∃ f, a.lookup "_FillValue" = some (.num f) ∧ v.shape ≠ [])

theorem dataset_ok (zero : K) (v : Arr K) (a : Dict (Value K))
    (h : a.lookup "_FillValue" = none ∨
      ∃ f, a.lookup "_FillValue" = some (.num f) ∧ v.shape ≠ []) :
    ∃ w a', putDataset zero v a = .ok (w, a') ∧ w.shape = v.shape ∧
      w.vals = (if v.shape = [] then [zero] else v.vals.map Prod.fst) ∧
      ∀ attr, w.attrs.lookup attr = if attr = "_FillValue" then none else a.lookup attr := by
  rcases h with h | ⟨f, h, hs⟩
  · have hl : ∀ attr, a.lookup attr = if attr = "_FillValue" then none else a.lookup attr := by
      intro attr
      split
      · next e => rw [e, h]
      · rfl
    by_cases hv : v.shape = []
    · refine ⟨_, _, by simp only [putDataset, h]; rw [if_neg (by simp [hv])], hv.symm, ?_, hl⟩
      rw [if_pos hv]
    · refine ⟨_, _, by simp only [putDataset, h]; rw [if_pos hv], rfl, ?_, hl⟩
      rw [if_neg hv]
  · refine ⟨_, _, by simp only [putDataset, h]; rw [if_neg hs], rfl, ?_, ?_⟩
    · rw [if_neg hs]
    · exact fun attr => erase_lookup _ _ _

/-- An array with the mask taken off. -/
def bare (a : Arr K) : Arr K := ⟨a.shape, a.vals.map fun p => (p.1, false)⟩

/-- C90: what a new HDF5 file gives back: the numbers that were under the masks too, and all
attributes but the fill value. -/
theorem C90_file [DecidableEq K] (zero : K) (output : Dict (Arr K)) (atts : Atts K)
    (h : Plain output atts) :
    ∃ file after, toHDF5 zero output atts [] = .ok (file, after) ∧
      ∀ mapping : Dict String,
        (∀ m ∈ mapping, ∃ v, (m.2, v) ∈ output ∧ v.shape ≠ []) →
        ∃ read, fromHDF5 mapping file = .ok read ∧
          Returns (output.map fun p => (p.1, bare p.2))
            (fun k attr => if attr = "_FillValue" then none else given atts k attr)
            mapping read := by
  have back : ∀ k v, (k, v) ∈ output → ∃ a, atts.lookup k = some a ∧
      ∃ w a', putDataset zero v a = .ok (w, a') ∧ w.shape = v.shape ∧
      w.vals = (if v.shape = [] then [zero] else v.vals.map Prod.fst) ∧
      ∀ attr, w.attrs.lookup attr = if attr = "_FillValue" then none else a.lookup attr := by
    intro k v hkv
    obtain ⟨a, h1, h2⟩ := h.attributes k v hkv
    exact ⟨a, h1, dataset_ok zero v a h2⟩
  obtain ⟨file, after, e, i1, -⟩ := hdf5_ok zero output h.names atts [] (fun _ _ => rfl) (by
    intro k v hkv
    obtain ⟨a, h1, w, a', h2, -⟩ := back k v hkv
    exact ⟨a, w, a', h1, h2⟩)
  refine ⟨file, after, e, fun mapping hm => ?_⟩
  rw [fromHDF5]
  refine pyMap_forall₂ fun m hmm => ?_
  obtain ⟨v, hkv, hs⟩ := hm m hmm
  obtain ⟨a, w, a', j1, j2, j3, -⟩ := i1 m.2 v hkv
  obtain ⟨b, h1, x, b', h2, h3, h4, h5⟩ := back m.2 v hkv
  rw [j1] at h1
  cases h1
  rw [j2] at h2
  cases h2
  rw [if_neg hs] at h4
  have hw : ¬ w.shape = [] := by rw [h3]; exact hs
  have hf : (foundHDF5 w.attrs).lookup "_FillValue" = none := by
    rw [found_hdf5 _ _ (by decide), h5, if_pos rfl]
  refine ⟨(m.1, ⟨w.shape, w.vals.map fun x => (x, false)⟩, foundHDF5 w.attrs), ?_, rfl,
    bare v, List.mem_map.2 ⟨_, hkv, rfl⟩, ⟨h3, ?_⟩, ?_⟩
  · have hmask : mask m.1 ⟨w.shape, w.vals.map fun x => (x, false)⟩ (foundHDF5 w.attrs) =
        .ok ⟨w.shape, w.vals.map fun x => (x, false)⟩ := by
      rw [mask]
      split
      · rw [hf]
      · rfl
    simp only [j3]
    rw [if_neg hw, hmask, ok_bind]
  · rw [h4]
    simp only [seen, bare, List.map_map]
    rfl
  · intro attr ha
    dsimp only
    rw [found_hdf5 _ _ ha, h5]
    split
    · rfl
    · rw [given, j1]
      rfl

/-- C90: arrays without a mask come back from a HDF5 file.  Missing: masks, scalars and fill
values. -/
theorem C90_values_partial [DecidableEq K] (zero : K) (output : Dict (Arr K)) (atts : Atts K)
    (h : Plain output atts) (hshape : ∀ k v, (k, v) ∈ output → v.shape ≠ [])
    (hmask : ∀ k v, (k, v) ∈ output → ∀ p ∈ v.vals, p.2 = false)
    (hfill : ∀ k v, (k, v) ∈ output → given atts k "_FillValue" = none) :
    ∃ file after, toHDF5 zero output atts [] = .ok (file, after) ∧
      ∀ mapping : Dict String, (∀ m ∈ mapping, m.2 ∈ output.map Prod.fst) →
        ∃ read, fromHDF5 mapping file = .ok read ∧
          Returns output (given atts) mapping read := by
  obtain ⟨file, after, e, r⟩ := C90_file zero output atts h
  refine ⟨file, after, e, fun mapping hm => ?_⟩
  obtain ⟨read, e', hr⟩ := r mapping (by
    intro m hmm
    obtain ⟨⟨k, v⟩, hkv, hk⟩ := List.mem_map.1 (hm m hmm)
    exact ⟨v, hk ▸ hkv, hshape k v hkv⟩)
  refine ⟨read, e', List.Forall₂.imp ?_ hr⟩
  rintro m x ⟨h1, val, h2, h3, h4⟩
  obtain ⟨⟨k, v⟩, hkv, hk⟩ := List.mem_map.1 h2
  cases hk
  have hb : bare v = v := by
    obtain ⟨s, vals⟩ := v
    rw [bare]
    congr 1
    refine (List.map_congr_left fun p hp => ?_).trans (List.map_id _)
    rw [← hmask _ _ hkv p hp]
    rfl
  rw [hb] at h3
  refine ⟨h1, v, hkv, h3, fun attr ha => ?_⟩
  rw [h4 attr ha]
  dsimp only
  split
  · next e => rw [e, hfill _ v hkv]
  · rfl

/-- C90 is false of masked data: whatever was masked is read as a number. -/
theorem C90_mask_false [DecidableEq K] (zero : K) (output : Dict (Arr K)) (atts : Atts K)
    (h : Plain output atts) (v : Arr K) (hv : ("data", v) ∈ output) (hs : v.shape ≠ []) :
    ∃ file after read attrs, toHDF5 zero output atts [] = .ok (file, after) ∧
      fromHDF5 [("data", "data")] file = .ok [("data", read, attrs)] ∧
      seen read = v.vals.map (fun p => some p.1) ∧ attrs.lookup "_FillValue" = none := by
  obtain ⟨file, after, e, r⟩ := C90_file zero output atts h
  obtain ⟨read, e', hr⟩ := r [("data", "data")] (by
    intro m hm
    rw [List.mem_singleton] at hm
    subst hm
    exact ⟨v, hv, hs⟩)
  cases hr with
  | cons h1 h2 =>
    cases h2
    obtain ⟨g1, val, g2, g3, g4⟩ := h1
    obtain ⟨⟨k, u⟩, hu, hk⟩ := List.mem_map.1 g2
    cases hk
    have : u = v := by
      have a := lookup_of_mem h.names hu
      have b := lookup_of_mem h.names hv
      rw [a] at b
      exact Option.some.inj b
    subst this
    rename_i x
    obtain ⟨key, got, attrs⟩ := x
    dsimp only at g1 g3 g4
    subst g1
    refine ⟨file, after, got, attrs, e, e', ?_, ?_⟩
    · rw [g3.2]
      simp only [seen, bare, List.map_map]
      rfl
    · rw [g4 _ (by decide), if_pos rfl]

/-- C90 is false of scalars: the file has zero for every scalar, and reading one is an error. -/
theorem C90_scalar_false [DecidableEq K] (zero : K) (output : Dict (Arr K)) (atts : Atts K)
    (h : Plain output atts) (k : String) (v : Arr K) (hk : (k, v) ∈ output) (hs : v.shape = []) :
    ∃ file after w, toHDF5 zero output atts [] = .ok (file, after) ∧ file.lookup k = some w ∧
      w.vals = [zero] ∧ ∀ key, fromHDF5 [(key, k)] file = .error .valueError := by
  have back : ∀ k v, (k, v) ∈ output → ∃ a w a', atts.lookup k = some a ∧
      putDataset zero v a = .ok (w, a') := by
    intro k v hkv
    obtain ⟨a, h1, h2⟩ := h.attributes k v hkv
    obtain ⟨w, a', h3, -⟩ := dataset_ok zero v a h2
    exact ⟨a, w, a', h1, h3⟩
  obtain ⟨file, after, e, i1, -⟩ := hdf5_ok zero output h.names atts [] (fun _ _ => rfl) back
  obtain ⟨a, w, a', j1, j2, j3, -⟩ := i1 k v hk
  obtain ⟨b, b1, b2⟩ := h.attributes k v hk
  rw [j1] at b1
  cases b1
  obtain ⟨x, x', h3, h4, h5, -⟩ := dataset_ok zero v a b2
  rw [j2] at h3
  cases h3
  refine ⟨file, after, w, e, j3, by rw [h5, if_pos hs], fun key => ?_⟩
  simp only [fromHDF5, pyMap, j3]
  rw [if_pos (h4.trans hs)]

/-- C90: a dataset that exists in the file is written only when it has no attributes; with any
attribute the writer raises `KeyError` (the values have been stored then). -/
theorem C90_append_false (zero : K) (key : String) (val : Arr K) (rest : Dict (Arr K))
    (atts : Atts K) (file : Dict (Var K)) (w : Var K) (hw : file.lookup key = some w)
    (hs : val.shape = w.shape) (hne : val.shape ≠ []) (p : String × Value K) (a : Dict (Value K))
    (ha : atts.lookup key = some (p :: a)) :
    toHDF5 zero ((key, val) :: rest) atts file = .error .keyError := by
  rw [toHDF5]
  simp only [hw, if_neg hne, ← hs, spread_same, ha]

/-- C90: a file of another program.  A dataset with a fill value is masked where it has this value when it is
read as the data; under any other name the fill values are read as numbers. -/
theorem C90_foreign [DecidableEq K] (key k : String) (file : Dict (Var K)) (v : Var K) (f : K)
    (hv : file.lookup k = some v) (hs : v.shape ≠ []) (hf : v.attrs.lookup "_FillValue" = some (.num f)) :
    ∃ a attrs, fromHDF5 [(key, k)] file = .ok [(key, a, attrs)] ∧
      attrs.lookup "_FillValue" = some (.num f) ∧
      seen a = v.vals.map fun x => if key = "data" ∧ x = f then none else some x := by
  have hl : (foundHDF5 v.attrs).lookup "_FillValue" = some (.num f) := by
    have hw : "_FillValue" ∈ wanted := by decide
    rw [foundHDF5]
    revert hw
    generalize wanted = l
    intro hw
    induction l with
    | nil => simp at hw
    | cons w l ih =>
      rw [List.filterMap_cons]
      by_cases e : "_FillValue" = w
      · subst e
        rw [hf, Option.map_some, List.lookup_cons, beq_self_eq_true]
      · have := ih ((List.mem_cons.1 hw).resolve_left e)
        cases v.attrs.lookup w with
        | none => exact this
        | some x =>
          rw [Option.map_some, List.lookup_cons, beq_eq_false_iff_ne.2 e]
          exact this
  rw [fromHDF5, pyMap, pyMap]
  dsimp only
  rw [hv]
  dsimp only
  rw [if_neg hs, mask]
  by_cases hk : key = "data"
  · rw [if_pos hk, hl]
    refine ⟨_, _, rfl, hl, ?_⟩
    rw [seen, List.map_map, List.map_map]
    refine List.map_congr_left fun x _ => ?_
    simp [hk]
  · rw [if_neg hk]
    refine ⟨_, _, rfl, hl, ?_⟩
    rw [seen, List.map_map]
    refine List.map_congr_left fun x _ => ?_
    simp [hk]

/-! ### Examples -/

/-- A track with two heights of which one is masked. -/
def track : Dict (Arr Int) := [("time", ⟨[2], [(1, false), (2, false)]⟩),
  ("data", ⟨[2], [(5, false), (0, true)]⟩), ("crs", ⟨[], [(7, false)]⟩)]

/-- Its attributes. -/
def trackAtts : Atts Int := [("time", [("units", .text "days")]),
  ("data", [("units", .text "meters"), ("_FillValue", .num (-9999))]), ("crs", [])]

example : Sound 99 track trackAtts := by
  refine ⟨by unfold Distinct; decide, ?_⟩
  intro k v hkv
  simp only [track, List.mem_cons, List.not_mem_nil, or_false, Prod.mk.injEq] at hkv
  rcases hkv with ⟨rfl, rfl⟩ | ⟨rfl, rfl⟩ | ⟨rfl, rfl⟩
  · refine ⟨[("units", .text "days")], rfl, by unfold Distinct; decide, ?_, Or.inl ⟨rfl, ?_⟩⟩
    · intro attr h1 n h2 h3
      revert attr n
      decide
    · decide
  · refine ⟨[("units", .text "meters"), ("_FillValue", .num (-9999))], rfl,
      by unfold Distinct; decide, ?_, Or.inr ⟨-9999, rfl, ?_⟩⟩
    · intro attr h1 n h2 h3
      revert attr n
      decide
    · decide
  · refine ⟨[], rfl, by unfold Distinct; decide, ?_, Or.inl ⟨rfl, ?_⟩⟩
    · intro attr h1 n h2 h3
      simp at h2
    · decide

example : Drift track trackAtts 2 := by
  refine ⟨⟨_, rfl, rfl⟩, ?_⟩
  intro k v hkv
  simp only [track, List.mem_cons, List.not_mem_nil, or_false, Prod.mk.injEq] at hkv
  rcases hkv with ⟨rfl, rfl⟩ | ⟨rfl, rfl⟩ | ⟨rfl, rfl⟩
  · exact Or.inl rfl
  · exact Or.inl rfl
  · exact Or.inr ⟨rfl, rfl⟩

/-- A grid of one row, two columns and three times. -/
def map : Dict (Arr Int) := [("y", ⟨[1], [(1, false)]⟩), ("x", ⟨[2], [(1, false), (2, false)]⟩),
  ("tide", ⟨[1, 2, 3], List.replicate 6 (4, false)⟩)]

example : Gridded map [("y", []), ("x", []), ("tide", [("_FillValue", .num 0)])] 1 2 3 := by
  refine ⟨⟨"tide", _, by simp [map]; rfl, rfl, by decide⟩, ?_⟩
  intro k v hkv
  simp only [map, List.mem_cons, List.not_mem_nil, or_false, Prod.mk.injEq] at hkv
  rcases hkv with ⟨rfl, rfl⟩ | ⟨rfl, rfl⟩ | ⟨rfl, rfl⟩
  · exact Or.inr ⟨by decide, rfl⟩
  · exact Or.inr ⟨by decide, rfl⟩
  · exact Or.inl rfl

/-- Heights of two stations at three times. -/
def gauges : Dict (Arr Int) := [("time", ⟨[3], List.replicate 3 (1, false)⟩),
  ("tide", ⟨[2, 3], List.replicate 6 (4, false)⟩)]

example : Stations gauges [("time", []), ("tide", [])] 2 3 := by
  refine ⟨⟨"tide", _, by simp [gauges]; rfl, rfl, by decide⟩, ?_⟩
  intro k v hkv
  simp only [gauges, List.mem_cons, List.not_mem_nil, or_false, Prod.mk.injEq] at hkv
  rcases hkv with ⟨rfl, rfl⟩ | ⟨rfl, rfl⟩
  · exact Or.inr ⟨by decide, rfl⟩
  · exact Or.inl rfl

example : Plain track trackAtts := by
  refine ⟨by unfold Distinct; decide, ?_⟩
  intro k v hkv
  simp only [track, List.mem_cons, List.not_mem_nil, or_false, Prod.mk.injEq] at hkv
  rcases hkv with ⟨rfl, rfl⟩ | ⟨rfl, rfl⟩ | ⟨rfl, rfl⟩
  · exact ⟨_, rfl, Or.inl rfl⟩
  · exact ⟨_, rfl, Or.inr ⟨-9999, rfl, by simp⟩⟩
  · exact ⟨_, rfl, Or.inl rfl⟩

end Verif.Store
