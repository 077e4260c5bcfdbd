import Verif.Model.AtlasFile
import Verif.Lemmas.Py
import Mathlib.Tactic.NormNum
import Mathlib.Algebra.Order.Ring.Rat
/-!
C68: files in the netCDF format of ATLAS models
-/
namespace Verif.AtlasFile
open Verif

variable {K : Type} [Zero K]

theorem storeCoord_ok (x : List K) : storeCoord x.length x = .ok x := by
  unfold storeCoord; rw [if_pos rfl]

theorem storeCoord_ok' {n : Nat} {x : List K} (h : x.length = n) : storeCoord n x = .ok x := by
  unfold storeCoord; rw [if_pos h]

/-- A masked cell becomes zero. -/
def filled {C : Type} (part : C → K) : Option C → K
  | some z => part z
  | none => 0

theorem store_ok {C : Type} {nx ny : Nat} (part : C → K) {a : Arr C} (h1 : a.nx = nx)
    (h2 : a.ny = ny) : store nx ny part a = .ok ⟨nx, ny, fun j i => filled part (a.cell i j)⟩ := by
  unfold store
  rw [if_pos ⟨h1, h2⟩]
  rfl

theorem storeName_ok (c : String) (h : c.length ≤ 4) :
    storeName c = .ok (c.toList ++ List.replicate (4 - c.length) ' ') := by
  unfold storeName
  dsimp only
  rw [if_pos]
  rw [List.length_append, List.length_replicate, String.length_toList]
  omega

/-- A name without blanks at its ends. -/
def Tidy (c : String) : Prop :=
  c.toList ≠ [] ∧ c.toList.head? ≠ some ' ' ∧ c.toList.getLast? ≠ some ' '

theorem dropWhile_head {l : List Char} (h : l.head? ≠ some ' ') : l.dropWhile (· = ' ') = l := by
  cases l with
  | nil => rfl
  | cons a l =>
    rw [List.dropWhile_cons, if_neg]
    intro e
    apply h
    simp only [decide_eq_true_eq] at e
    simp [e]

theorem dropWhile_blank : ∀ (n : Nat) (l : List Char),
    (List.replicate n ' ' ++ l).dropWhile (· = ' ') = l.dropWhile (· = ' ')
  | 0, _ => rfl
  | n + 1, l => by
    rw [List.replicate_succ, List.cons_append, List.dropWhile_cons, if_pos (by simp)]
    exact dropWhile_blank n l

theorem trim_pad (c : String) (hc : Tidy c) (n : Nat) :
    trim (c.toList ++ List.replicate n ' ') = c := by
  obtain ⟨h0, h1, h2⟩ := hc
  unfold trim
  have e1 : (c.toList ++ List.replicate n ' ').dropWhile (· = ' ') =
      c.toList ++ List.replicate n ' ' := by
    refine dropWhile_head ?_
    rw [List.head?_append]
    cases hl : c.toList with
    | nil => exact absurd hl h0
    | cons a l => rw [hl] at h1; simpa using h1
  rw [e1, List.reverse_append, List.reverse_replicate, dropWhile_blank, dropWhile_head,
    List.reverse_reverse, String.ofList_toList]
  rw [List.head?_reverse]
  exact h2

/-- Reading the two parts of what was written. -/
theorem readParts_ok (f : File K) (re im : String) (a b : Nat → Nat → K)
    (h1 : f.vars.lookup re = some ⟨f.nx, f.ny, a⟩) (h2 : f.vars.lookup im = some ⟨f.nx, f.ny, b⟩) :
    readParts f re im = .ok (⟨f.ny, f.nx, fun i j => some (a j i, b j i)⟩, trim f.con) := by
  have g1 : getVar f re = .ok ⟨f.nx, f.ny, a⟩ := by unfold getVar; rw [h1]
  have g2 : getVar f im = .ok ⟨f.nx, f.ny, b⟩ := by unfold getVar; rw [h2]
  have f1 : fits f ⟨f.nx, f.ny, a⟩ = .ok fun i j => a j i := by
    unfold fits; rw [if_pos ⟨rfl, rfl⟩]
  have f2 : fits f ⟨f.nx, f.ny, b⟩ = .ok fun i j => b j i := by
    unfold fits; rw [if_pos ⟨rfl, rfl⟩]
  unfold readParts
  rw [g1, ok_bind, f1, ok_bind, g2, ok_bind, f2, ok_bind]

/-- What reading gives for an array that was written: the same shape and numbers; a masked cell has
become zero and is not masked. -/
def unmasked (a : Arr (K × K)) : Arr (K × K) where
  ny := a.ny
  nx := a.nx
  cell := fun i j => some ((a.cell i j).getD (0, 0))

theorem parts_unmasked (a : Arr (K × K)) :
    (⟨a.ny, a.nx, fun i j => some (filled Prod.fst (a.cell i j), filled Prod.snd (a.cell i j))⟩ :
      Arr (K × K)) = unmasked a := by
  unfold unmasked
  congr 1
  funext i j
  cases a.cell i j <;> rfl

/-- C68: an elevation constituent with a name of at most four letters is read back from the file it
was written to, with its name, its shape and every number; masked cells are read as zeros. -/
theorem C68_elevation (h : Arr (K × K)) (lon lat : List K) (c : String) (hx : lon.length = h.nx)
    (hy : lat.length = h.ny) (hl : c.length ≤ 4) (hc : Tidy c) :
    ∃ f, writeElevation h lon lat c = .ok f ∧ readFile f "z" = .ok (some (unmasked h, c)) ∧
      f.coords.lookup "lon_z" = some lon ∧ f.coords.lookup "lat_z" = some lat := by
  refine ⟨_, by
    unfold writeElevation
    rw [storeCoord_ok' hx, ok_bind, storeCoord_ok' hy, ok_bind, store_ok _ rfl rfl, ok_bind,
      store_ok _ rfl rfl, ok_bind, storeName_ok c hl, ok_bind], ?_, rfl, rfl⟩
  unfold readFile
  rw [if_pos rfl, readParts_ok _ "hRe" "hIm" (fun j i => filled Prod.fst (h.cell i j))
    (fun j i => filled Prod.snd (h.cell i j)) rfl rfl]
  dsimp only
  rw [parts_unmasked, trim_pad c hc]
  rfl

/-- The types that read the zonal and the meridional component. -/
def zonal : List String := ["u", "U"]
def meridional : List String := ["v", "V"]

/-- C68: both components of a transport constituent are read back from the file they were written
to, each for its own types; there are no elevations in it. -/
theorem C68_transport (u v : Arr (K × K)) (lonU latU lonV latV : List K) (c : String)
    (hx1 : lonU.length = u.nx) (hy1 : latU.length = u.ny) (hx2 : lonV.length = u.nx)
    (hy2 : latV.length = u.ny) (hs : v.nx = u.nx ∧ v.ny = u.ny) (hl : c.length ≤ 4)
    (hc : Tidy c) :
    ∃ f, writeTransport u v lonU latU lonV latV c = .ok f ∧
      (∀ t ∈ zonal, readFile f t = .ok (some (unmasked u, c))) ∧
      (∀ t ∈ meridional, readFile f t = .ok (some (unmasked v, c))) ∧
      readFile f "z" = .error .keyError ∧
      f.coords.lookup "lon_u" = some lonU ∧ f.coords.lookup "lat_u" = some latU ∧
      f.coords.lookup "lon_v" = some lonV ∧ f.coords.lookup "lat_v" = some latV := by
  refine ⟨_, by
    unfold writeTransport
    rw [storeCoord_ok' hx1, ok_bind, storeCoord_ok' hy1, ok_bind, storeCoord_ok' hx2, ok_bind,
      storeCoord_ok' hy2, ok_bind, store_ok _ rfl rfl, ok_bind, store_ok _ rfl rfl, ok_bind,
      store_ok _ hs.1 hs.2, ok_bind, store_ok _ hs.1 hs.2, ok_bind, storeName_ok c hl, ok_bind],
    ?_, ?_, ?_, rfl, rfl, rfl, rfl⟩
  · intro t ht
    unfold readFile
    have hz : t ≠ "z" := by rintro rfl; simp [zonal] at ht
    have hu : t = "U" ∨ t = "u" := by
      simp only [zonal, List.mem_cons, List.not_mem_nil, or_false] at ht; exact ht.symm
    rw [if_neg hz, if_pos hu, readParts_ok _ "uRe" "uIm" (fun j i => filled Prod.fst (u.cell i j))
      (fun j i => filled Prod.snd (u.cell i j)) rfl rfl]
    dsimp only
    rw [parts_unmasked, trim_pad c hc]
    rfl
  · intro t ht
    unfold readFile
    have hz : t ≠ "z" := by rintro rfl; simp [meridional] at ht
    have hu : ¬ (t = "U" ∨ t = "u") := by
      rintro (rfl | rfl) <;> simp [meridional] at ht
    have hv : t = "V" ∨ t = "v" := by
      simp only [meridional, List.mem_cons, List.not_mem_nil, or_false] at ht; exact ht.symm
    rw [if_neg hz, if_neg hu, if_pos hv, readParts_ok _ "vRe" "vIm"
      (fun j i => filled Prod.fst (v.cell i j)) (fun j i => filled Prod.snd (v.cell i j)) rfl rfl]
    dsimp only
    have := parts_unmasked v
    rw [hs.1, hs.2] at this
    rw [this, trim_pad c hc]
    rfl
  · unfold readFile
    rw [if_pos rfl]
    rfl

/-- A bathymetry as it is read: zero depths are masked. -/
def masked [DecidableEq K] (a : Arr K) : Arr K where
  ny := a.ny
  nx := a.nx
  cell := fun i j => match a.cell i j with
    | some d => if d = 0 then none else some d
    | none => none

theorem readGrid_ok [DecidableEq K] (f : File K) (type t : String) (ht : gridLetter type = some t)
    (a : Arr K) (lon lat : List K) (h1 : f.vars.lookup ("h" ++ t) = some ⟨f.nx, f.ny,
      fun j i => filled id (a.cell i j)⟩) (h2 : f.coords.lookup ("lon_" ++ t) = some lon)
    (h3 : f.coords.lookup ("lat_" ++ t) = some lat) (hs : a.nx = f.nx ∧ a.ny = f.ny) :
    readGrid f type = .ok (lon, lat, masked a) := by
  have g1 : getVar f ("h" ++ t) = .ok ⟨f.nx, f.ny, fun j i => filled id (a.cell i j)⟩ := by
    unfold getVar; rw [h1]
  have g2 : fits f ⟨f.nx, f.ny, fun j i => filled id (a.cell i j)⟩ =
      .ok fun i j => filled id (a.cell i j) := by
    unfold fits; rw [if_pos ⟨rfl, rfl⟩]
  have g3 : getCoord f ("lon_" ++ t) = .ok lon := by unfold getCoord; rw [h2]
  have g4 : getCoord f ("lat_" ++ t) = .ok lat := by unfold getCoord; rw [h3]
  unfold readGrid
  rw [ht]
  dsimp only
  rw [g1, ok_bind, g2, ok_bind, g3, ok_bind, g4, ok_bind]
  congr 3
  unfold masked
  rw [hs.1, hs.2]
  congr 1
  funext i j
  show (if filled id (a.cell i j) = 0 then none else some (filled id (a.cell i j))) = _
  generalize a.cell i j = x
  cases x with
  | none => simp [filled]
  | some d => rfl

/-- C68: the bathymetry and the coordinates of each kind of node are read back from a grid file,
for the types that use them; depths that are masked or zero are masked, and no others.  Another
type raises an error. -/
theorem C68_grid [DecidableEq K] (hz hu hv : Arr K) (lonZ latZ lonU latU lonV latV : List K)
    (su : hu.nx = hz.nx ∧ hu.ny = hz.ny) (sv : hv.nx = hz.nx ∧ hv.ny = hz.ny)
    (x1 : lonZ.length = hz.nx) (y1 : latZ.length = hz.ny) (x2 : lonU.length = hz.nx)
    (y2 : latU.length = hz.ny) (x3 : lonV.length = hz.nx) (y3 : latV.length = hz.ny) :
    ∃ f, writeGrid hz hu hv lonZ latZ lonU latU lonV latV = .ok f ∧
      readGrid f "z" = .ok (lonZ, latZ, masked hz) ∧
      (∀ t ∈ zonal, readGrid f t = .ok (lonU, latU, masked hu)) ∧
      (∀ t ∈ meridional, readGrid f t = .ok (lonV, latV, masked hv)) ∧
      ∀ t, t ≠ "z" → t ∉ zonal → t ∉ meridional → readGrid f t = .error .unbound := by
  refine ⟨_, by
    unfold writeGrid
    rw [storeCoord_ok' x1, ok_bind, storeCoord_ok' y1, ok_bind, storeCoord_ok' x2, ok_bind,
      storeCoord_ok' y2, ok_bind, storeCoord_ok' x3, ok_bind, storeCoord_ok' y3, ok_bind,
      store_ok _ rfl rfl, ok_bind, store_ok _ su.1 su.2, ok_bind, store_ok _ sv.1 sv.2, ok_bind],
    ?_, ?_, ?_, ?_⟩
  · exact readGrid_ok _ "z" "z" rfl hz _ _ rfl rfl rfl ⟨rfl, rfl⟩
  · intro t ht
    simp only [zonal, List.mem_cons, List.not_mem_nil, or_false] at ht
    rcases ht with rfl | rfl
    · exact readGrid_ok _ "u" "u" rfl hu _ _ rfl rfl rfl su
    · exact readGrid_ok _ "U" "u" rfl hu _ _ rfl rfl rfl su
  · intro t ht
    simp only [meridional, List.mem_cons, List.not_mem_nil, or_false] at ht
    rcases ht with rfl | rfl
    · exact readGrid_ok _ "v" "v" rfl hv _ _ rfl rfl rfl sv
    · exact readGrid_ok _ "V" "v" rfl hv _ _ rfl rfl rfl sv
  · intro t h1 h2 h3
    have e : gridLetter t = none := by
      unfold gridLetter
      simp only [zonal, meridional, List.mem_cons, List.not_mem_nil, or_false, not_or] at h2 h3
      rw [if_neg h1, if_neg (by simp [h2]), if_neg (by simp [h3])]
    unfold readGrid
    rw [e]

/-- The mask of the elevations is that of the bathymetry, and depths elsewhere are not zero. -/
def SameLand {C : Type} (h : Arr C) (b : Arr K) : Prop :=
  ∀ i j, (h.cell i j = none ↔ b.cell i j = none) ∧ b.cell i j ≠ some 0

/-- C68: with the mask of a bathymetry that is masked in the same cells, and whose other depths are
not zero, the written elevations come back unchanged, mask included. -/
theorem C68_with_grid [DecidableEq K] (h : Arr (K × K)) (b : Arr K) (hl : SameLand h b) :
    maskBy (unmasked h) (masked b) = h := by
  unfold maskBy unmasked masked
  cases h with
  | mk ny nx cell =>
    simp only
    congr 1
    funext i j
    obtain ⟨h1, h2⟩ := hl i j
    simp only at h1
    cases hb : b.cell i j with
    | none => simp [h1.2 hb]
    | some d =>
      have hd : d ≠ 0 := by
        rintro rfl
        exact h2 hb
      cases hc : cell i j with
      | none => rw [h1.1 hc] at hb; cases hb
      | some z => simp [hd]

/-- C68 fails for masked cells of a file alone: a masked cell is read as the number zero. -/
theorem C68_mask_false : ∃ (h : Arr (ℚ × ℚ)) (f : File ℚ) (r : Arr (ℚ × ℚ)),
    writeElevation h [0] [0] "m2" = .ok f ∧ readFile f "z" = .ok (some (r, "m2")) ∧
      h.cell 0 0 = none ∧ r.cell 0 0 = some (0, 0) := by
  obtain ⟨f, h1, h2, -⟩ := C68_elevation (⟨1, 1, fun _ _ => none⟩ : Arr (ℚ × ℚ)) [0] [0] "m2" rfl rfl
    (by decide) (by unfold Tidy; decide)
  exact ⟨_, f, _, h1, h2, rfl, rfl⟩

/-- C68 fails for names of more than four letters (`msqm8`, `2mk3n`, ...): the file is not
written. -/
theorem C68_name_false (h : Arr (K × K)) (lon lat : List K) (c : String) (hx : lon.length = h.nx)
    (hy : lat.length = h.ny) (hl : 4 < c.length) :
    writeElevation h lon lat c = .error .indexError := by
  unfold writeElevation
  rw [storeCoord_ok' hx, ok_bind, storeCoord_ok' hy, ok_bind, store_ok _ rfl rfl, ok_bind,
      store_ok _ rfl rfl, ok_bind]
  have : storeName c = .error .indexError := by
    unfold storeName
    dsimp only
    rw [if_neg]
    rw [List.length_append, List.length_replicate, String.length_toList]
    omega
  rw [this, error_bind]

example : Tidy "m2" ∧ Tidy "2n2" ∧ ("m2" : String).length ≤ 4 ∧ 4 < ("lambda2" : String).length := by
  unfold Tidy; decide

example : SameLand (⟨1, 2, fun _ j => if j = 0 then none else some (1, 2)⟩ : Arr (ℚ × ℚ))
    (⟨1, 2, fun _ j => if j = 0 then none else some 5⟩ : Arr ℚ) := by
  intro i j
  by_cases h : j = 0 <;> simp [h]

end Verif.AtlasFile
