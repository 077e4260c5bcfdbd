import Verif.Model.Names
import Verif.Spec.Names
import Verif.Props.Definition
import Verif.Model.Listing
/-!
C119: what a model gives has the right name in every product, whatever was selected before.
-/
namespace Verif.Names
open Verif Verif.Definition Verif.Spec.Names

variable {P : Type}

theorem isStr_iff (v : String) (x : Val P) : isStr v x = true ↔ x = .str v := by
  cases x <;> simp [isStr]

theorem isZ_iff (x : Val P) : isZ x = true ↔ x = .str "z" := by
  cases x <;> simp [isZ]

theorem isUV_iff (x : Val P) : isUV x = true ↔ x = .list [.str "u", .str "v"] := by
  constructor
  · intro h
    unfold isUV at h
    split at h
    · simp only [Bool.decide_and, Bool.and_eq_true, decide_eq_true_eq] at h
      rw [h.1, h.2]
    · exact absurd h (by simp)
  · rintro rfl
    simp [isUV]

theorem gives_iff (s : Attrs P) (v : String) :
    gives s v = true ↔ s "type" = .str "z" ∧ s "variable" = .str v := by
  rw [gives, Bool.and_eq_true, isZ_iff, isStr_iff]

theorem stored_inj {k k' : Kind} (h : stored k = stored k') : k = k' := by
  cases k <;> cases k' <;> first | rfl | exact absurd h (by decide)

theorem choose_eq (n : Kind → String) (s : Attrs P) (x : String) :
    choose (n .ocean) (n .load) (n .equilibrium) s = some x ↔
      s "type" = .str "z" ∧ ∃ k, s "variable" = .str (stored k) ∧ n k = x := by
  have key : ∀ k, gives s (stored k) = true →
      choose (n .ocean) (n .load) (n .equilibrium) s = some (n k) := by
    intro k hk
    have hk' := (gives_iff _ _).1 hk
    have other : ∀ k', k' ≠ k → gives s (stored k') = false := by
      intro k' hne
      rw [Bool.eq_false_iff, ne_eq, gives_iff]
      rintro ⟨_, h⟩
      rw [hk'.2] at h
      exact hne (stored_inj (Val.str.inj h).symm)
    cases k with
    | ocean => exact if_pos hk
    | load =>
      have h1 : gives s "tide_ocean" = false := other .ocean (by decide)
      have h2 : gives s "tide_load" = true := hk
      simp [choose, h1, h2]
    | equilibrium =>
      have h1 : gives s "tide_ocean" = false := other .ocean (by decide)
      have h2 : gives s "tide_load" = false := other .load (by decide)
      have h3 : gives s "tide_lpe" = true := hk
      simp [choose, h1, h2, h3]
  constructor
  · intro h
    rw [choose] at h
    split at h
    · next g => exact ⟨((gives_iff _ _).1 g).1, .ocean, ((gives_iff _ _).1 g).2, Option.some.inj h⟩
    · split at h
      · next g => exact ⟨((gives_iff _ _).1 g).1, .load, ((gives_iff _ _).1 g).2, Option.some.inj h⟩
      · split at h
        · next g => exact ⟨((gives_iff _ _).1 g).1, .equilibrium, ((gives_iff _ _).1 g).2, Option.some.inj h⟩
        · simp at h
  · rintro ⟨ht, k, hv, rfl⟩
    exact key k ((gives_iff _ _).2 ⟨ht, hv⟩)

/-- **C119** (names).  For every object and every product: the property is a name exactly if the type is `z`
and the variable is one of the three of the database, and then it is the name of that variable in the
product. -/
theorem C119_name (s : Attrs P) (p : String × (Kind → String)) (hp : p ∈ products) (x : String) :
    product p.1 s = some x ↔
      s "type" = .str "z" ∧ ∃ k, s "variable" = .str (stored k) ∧ p.2 k = x := by
  have key := choose_eq p.2 s x
  simp only [products, List.mem_cons, List.not_mem_nil, or_false] at hp
  rcases hp with rfl | rfl | rfl | rfl | rfl | rfl | rfl <;> exact key

/-- **C119** (different variables).  In every product two models have the same name only if they give the same
variable: an ocean tide is never kept in the place of a load tide. -/
theorem C119_distinct (s s' : Attrs P) (p : String × (Kind → String)) (hp : p ∈ products) (x : String)
    (h : product p.1 s = some x) (h' : product p.1 s' = some x) : s "variable" = s' "variable" := by
  obtain ⟨_, k, hk, e⟩ := (C119_name s p hp x).1 h
  obtain ⟨_, k', hk', e'⟩ := (C119_name s' p hp x).1 h'
  have : k = k' := by
    have e := e.trans e'.symm
    simp only [products, List.mem_cons, List.not_mem_nil, or_false] at hp
    rcases hp with rfl | rfl | rfl | rfl | rfl | rfl | rfl <;> cases k <;> cases k' <;>
      first | rfl | exact absurd e (by decide)
  rw [hk, hk', this]

/-- An entry of a database with one value for an attribute. -/
def Says (entry : List (String × Val P)) (k : String) (v : Val P) : Prop :=
  (k, v) ∈ entry ∧ ∀ w, (k, w) ∈ entry → w = v

theorem fromDict_says (d : List (String × Val P)) (s : Attrs P) {k : String} {v : Val P} (h : Says d k v) :
    fromDict s d k = v := by
  obtain ⟨hm, hu⟩ := h
  induction d generalizing s with
  | nil => simp at hm
  | cons x d ih =>
    by_cases hk : (k, v) ∈ d
    · exact ih (s := set s x.1 x.2) hk fun w hw => hu w (List.mem_cons_of_mem _ hw)
    · have hx : x = (k, v) := by
        rcases List.mem_cons.1 hm with h | h
        · exact h.symm
        · exact absurd h hk
      subst hx
      have hn : k ∉ keys d := by
        intro hn
        obtain ⟨⟨k', w⟩, hy, rfl⟩ := List.mem_map.1 hn
        have := hu w (List.mem_cons_of_mem _ hy)
        exact hk (this ▸ hy)
      change fromDict (set s k v) d k = v
      rw [fromDict_other d _ k hn, set_same]

theorem select_says (S : Sys P) (formats : List String) (dir : P) (currents : Bool) (s0 s : Attrs P)
    (entry : List (String × Val P)) (h : select S formats dir currents s0 entry = .ok s) {k : String}
    {v : Val P} (hk : k ∉ ["format", "grid_file", "model_file", "constituents"]) (hv : Says entry k v) :
    s k = v := by
  obtain ⟨x, _, h⟩ := bindOk h
  rw [← Except.ok.inj h, update_other, fromDict_says entry s0 hv]
  all_goals simp only [List.mem_cons, List.not_mem_nil, or_false, not_or] at hk
  all_goals first
    | exact hk.1
    | exact hk.2.1
    | exact hk.2.2.1
    | exact hk.2.2.2
    | simp [hk]

/-- **C119** (selected models).  Whatever an object was before, when a model of elevations with one of the
three variables is selected it has the names of that variable in all products. -/
theorem C119_elevation (S : Sys P) (formats : List String) (dir : P) (s0 s : Attrs P)
    (entry : List (String × Val P)) (k : Kind) (ht : Says entry "type" (.str "z"))
    (hv : Says entry "variable" (.str (stored k)))
    (h : select S formats dir false s0 entry = .ok s) :
    (∀ p ∈ products, product p.1 s = some (p.2 k)) ∧
    longName s = some (.one (match k with
      | .ocean => "ocean_tide_elevation"
      | .load => "load_tide_elevation"
      | .equilibrium => "equilibrium_tide_elevation")) ∧
    description s = some (.one (match k with
      | .ocean => "Ocean tidal elevations derived from harmonic constants"
      | .load => "Local displacement due to ocean tidal loading derived from harmonic constants"
      | .equilibrium => "Long-period equilibrium tide elevations")) := by
  have h1 := select_says S formats dir false s0 s entry h (by decide) ht
  have h2 := select_says S formats dir false s0 s entry h (by decide) hv
  refine ⟨fun p hp => (C119_name s p hp _).2 ⟨h1, k, h2, rfl⟩, ?_, ?_⟩
  all_goals
    have g : ∀ v, gives s v = decide (v = stored k) := by
      intro v
      rw [Bool.eq_iff_iff, gives_iff, decide_eq_true_eq]
      constructor
      · rintro ⟨_, e⟩
        rw [h2] at e
        exact (Val.str.inj e).symm
      · rintro rfl
        exact ⟨h1, h2⟩
    simp only [longName, description, describe, g]
    cases k <;> simp [stored]

/-- **C119** (currents).  Whatever an object was before, when a model of currents is selected it has no name in
any product, and a name and a description for each of the two components. -/
theorem C119_current (S : Sys P) (formats : List String) (dir : P) (s0 s : Attrs P)
    (entry : List (String × Val P)) (ht : Says entry "type" (.list [.str "u", .str "v"]))
    (h : select S formats dir true s0 entry = .ok s) :
    (∀ p ∈ products, product p.1 s = none) ∧
    longName s = some (.two "zonal_tidal_current" "meridional_tidal_current") ∧
    description s = some (.two "Depth-averaged tidal zonal current derived from harmonic constants"
      "Depth-averaged tidal meridional current derived from harmonic constants") := by
  have h1 := select_says S formats dir true s0 s entry h (by decide) ht
  have g : ∀ v, gives s v = false := by
    intro v
    rw [Bool.eq_false_iff, ne_eq, gives_iff, h1]
    simp
  refine ⟨fun p hp => ?_, ?_, ?_⟩
  · cases e : product p.1 s with
    | none => rfl
    | some x =>
      have := ((C119_name s p hp x).1 e).1
      rw [h1] at this
      simp at this
  · simp [longName, describe, g, h1, isUV]
  · simp [description, describe, g, h1, isUV]

/-- **C119** (the package).  Every model of elevations of the package has type `z` and one of the three
variables, and no model of currents has. -/
theorem C119_package :
    (∀ x ∈ Listing.shipped.elevation, x.2.z = true ∧
      ∃ k ∈ [Kind.ocean, Kind.load, Kind.equilibrium], x.2.var = some (stored k)) ∧
    ∀ x ∈ Listing.shipped.current, x.2.z = false := by
  refine ⟨?_, ?_⟩ <;> decide +kernel

/-- The entry of a model. -/
def re14 : List (String × Val String) :=
  [("format", .str "GOT-ascii"), ("model_file", .list [.str "RE14/Mf.d", .str "RE14/Ms.d"]),
    ("name", .str "RE14"), ("type", .str "z"), ("variable", .str "tide_lpe")]

set_option maxRecDepth 10000 in
example : ∃ s, select strings known "data" false (fresh false) re14 = .ok s ∧
    product "gla12" s = some "d_eqElv" := ⟨_, rfl, rfl⟩

example : Says re14 "type" (.str "z") ∧ Says re14 "variable" (.str (stored .equilibrium)) := by
  constructor <;> refine ⟨by simp [re14, stored], fun w hw => ?_⟩ <;>
    simpa [re14, stored] using hw

/-- **C119** (refuted: types in a list).  A definition of a model whose type is given as a list with `z` in it
is accepted, but has no name in any product and no description. -/
theorem C119_list_false (S : Sys P) (formats : List String) (dir : Option P) (s0 s : Attrs P)
    (d : List (String × Val P)) (ht : Says d "type" (.list [.str "z"]))
    (h : parseDefinition S formats dir s0 d = .ok s) :
    (∀ p ∈ products, product p.1 s = none) ∧ longName s = none ∧ description s = none := by
  obtain ⟨x, _, h⟩ := bindOk h
  have h1 : s "type" = .list [.str "z"] := by
    rw [← Except.ok.inj h, update_other, fromDict_says d s0 ht]
    all_goals decide
  have g : ∀ v, gives s v = false := by
    intro v
    rw [Bool.eq_false_iff, ne_eq, gives_iff, h1]
    simp
  refine ⟨fun p hp => ?_, ?_, ?_⟩
  · cases e : product p.1 s with
    | none => rfl
    | some x =>
      have := ((C119_name s p hp x).1 e).1
      rw [h1] at this
      simp at this
  · simp [longName, describe, g, h1, isUV]
  · simp [description, describe, g, h1, isUV]

/-- A definition with a type in a list. -/
def listed : List (String × Val String) :=
  [("name", .str "mine"), ("format", .str "GOT-netcdf"), ("type", .list [.str "z"]),
    ("variable", .str "tide_ocean"), ("model_file", .list [.str "m2.nc"]), ("scale", .num "0.01")]

set_option maxRecDepth 10000 in
example : ∃ s, parseDefinition strings known none (fresh false) listed = .ok s := ⟨_, rfl⟩

end Verif.Names
