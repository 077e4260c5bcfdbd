import Verif.Model.Parquet
import Verif.Props.Store
import Verif.Lemmas.Py
/-!
C116: tables written to parquet files and read back.
-/
namespace Verif.Parquet
open Verif Verif.Listing Verif.FileNames

variable {V A S : Type}

/-- A table of columns with different names and of one length, as it is given to the writer. -/
structure Table (output : Dict (Arr V)) (t : Dict (List V)) : Prop where
  same : output = t.map fun p => (p.1, .line p.2)
  names : (t.map Prod.fst).Nodup
  length : ∀ p ∈ t, ∀ q ∈ t, p.2.length = q.2.length

/-- The attributes that the writer adds by itself. -/
def added : List String := ["crs", "date_created", "software_reference", "software_version"]

theorem Table.frame {output : Dict (Arr V)} {t : Dict (List V)} (h : Table output t) : frame output = .ok t := by
  have : pyMap column output = .ok t := by
    rw [h.same]
    clear h
    induction t with
    | nil => rfl
    | cons p t ih =>
      rw [List.map_cons, pyMap, ih]
      rfl
  rw [Parquet.frame, this]
  exact if_pos h.length

theorem Table.keys {output : Dict (Arr V)} {t : Dict (List V)} (h : Table output t) :
    output.map Prod.fst = t.map Prod.fst := by
  rw [h.same, List.map_map]; rfl

theorem put_absent {W : Type} (k : String) (v : W) : ∀ d : Dict W, k ∉ d.map Prod.fst → put k v d = d ++ [(k, v)]
  | [], _ => rfl
  | p :: d, h => by
    have hp : p.1 ≠ k := fun e => h (by simp [e])
    rw [put, if_neg hp, put_absent k v d (fun e => h (List.mem_cons_of_mem _ e))]
    rfl

theorem plain_keys (t : Dict (List V)) : (plain t).map Prod.fst = t.map Prod.fst := by
  rw [plain, List.map_map]; rfl

/-- What the attributes of the metadata are after the writer has added its own. -/
theorem stamp_lookup (w : World V A S) (d : Dict A) (k : String) (hk : k ∉ added) :
    (stamp w d).lookup k = d.lookup k := by
  simp only [added, List.mem_cons, List.not_mem_nil, or_false, not_or] at hk
  rw [stamp, lookup_put, if_neg (by tauto), lookup_put, if_neg (by tauto), lookup_put, if_neg (by tauto)]

theorem stamp_crs (w : World V A S) (d : Dict A) : (stamp w d).lookup "crs" = d.lookup "crs" := by
  rw [stamp, lookup_put, if_neg (by decide), lookup_put, if_neg (by decide), lookup_put, if_neg (by decide)]

/-- The file of a table without geometry. -/
theorem toParquet_plain (w : World V A S) (o : WriteOptions A) (output : Dict (Arr V))
    (t : Dict (List V)) (ht : Table output t) (attributes : Dict A) (s : Option (S × A))
    (hs : reference w o.crs = .ok s) (hgeo : o.geoparquet = false) :
    toParquet w o output attributes = .ok (⟨decide (o.index = some true), plain t, some (stamp w (referred s attributes)), none⟩,
      stamp w (referred s attributes)) := by
  simp only [toParquet, ht.frame, hs, ok_bind, hgeo, Bool.false_eq_true, false_and, if_false]

theorem plain_none {t : Dict (List V)} {k : String} (h : k ∉ t.map Prod.fst) : (plain t).lookup k = none := by
  rw [lookup_none]
  intro v hv
  refine h ?_
  rw [← plain_keys]
  exact List.mem_map.2 ⟨_, hv, rfl⟩

/-- C116: a table that is written with a reference system is read back: every column, in its order,
with all values and attributes, and the reference system. -/
theorem C116_table_partial (w : World V A S) (o : WriteOptions A) (r : ReadOptions) (output : Dict (Arr V))
    (t : Dict (List V)) (ht : Table output t) (attributes : Dict A) (s s' : S) (a : A)
    (hs : reference w o.crs = .ok (some (s, a))) (hback : w.user a = .ok s')
    (hgeo : o.geoparquet = false) (hindex : o.index ≠ some true)
    (hprimary : r.primary ∉ t.map Prod.fst) (hr : r.columns = none) :
    ∃ f after fr d, toParquet w o output attributes = .ok (f, after) ∧ fromParquet w r f = .ok fr ∧
      fr.columns = t.map (fun p => (p.1, p.2.map .val)) ∧
      fr.attrs.lookup "pyTMD" = some (.dict d) ∧
      (∀ k, k ∉ added → d.lookup k = attributes.lookup k) ∧ d.lookup "crs" = some a ∧
      fr.attrs.lookup "projection" = some (.srs s') ∧ fr.attrs.lookup "geoparquet" = some (.flag false) := by
  have hc : (stamp w (put "crs" a attributes)).lookup "crs" = some a :=
    (stamp_crs w _).trans (by rw [lookup_put, if_pos rfl])
  refine ⟨_, _, ⟨t.map (fun p => (p.1, p.2.map .val)), put "wkt" (.srs s') (put "projection" (.srs s')
    (put "geoparquet" (.flag false) [("pyTMD", .dict (stamp w (put "crs" a attributes)))]))⟩, _,
    toParquet_plain w o output t ht attributes _ hs hgeo, ?_, rfl, rfl, ?_, hc, rfl, rfl⟩
  · simp only [fromParquet, resetIndex, decide_eq_false hindex, Bool.false_eq_true, if_false, ok_bind, geometryOf, hc,
      referred, hback, plain_none hprimary, hr, rename]
    rfl
  · intro k hk
    rw [stamp_lookup w _ k hk, lookup_put, if_neg]
    rintro rfl
    exact hk (by simp [added])

/-- C116: a table that is written with its index comes back with the numbers of the rows as first column. -/
theorem C116_indexed_partial (w : World V A S) (o : WriteOptions A) (r : ReadOptions) (output : Dict (Arr V))
    (t : Dict (List V)) (ht : Table output t) (attributes : Dict A) (s s' : S) (a : A)
    (hs : reference w o.crs = .ok (some (s, a))) (hback : w.user a = .ok s')
    (hgeo : o.geoparquet = false) (hindex : o.index = some true) (hname : r.index ∉ t.map Prod.fst)
    (hprimary : r.primary ∉ r.index :: t.map Prod.fst) (hr : r.columns = none) (n : Nat) (hne : t ≠ [])
    (hn : ∀ p ∈ t, p.2.length = n) :
    ∃ f after fr, toParquet w o output attributes = .ok (f, after) ∧ fromParquet w r f = .ok fr ∧
      fr.columns = (r.index, (List.range n).map (fun i => .val (w.number i))) ::
        t.map (fun p => (p.1, p.2.map .val)) := by
  have hc : (stamp w (put "crs" a attributes)).lookup "crs" = some a :=
    (stamp_crs w _).trans (by rw [lookup_put, if_pos rfl])
  refine ⟨_, _, ⟨_, put "wkt" (.srs s') (put "projection" (.srs s')
    (put "geoparquet" (.flag false) [("pyTMD", .dict (stamp w (put "crs" a attributes)))]))⟩,
    toParquet_plain w o output t ht attributes _ hs hgeo, ?_, rfl⟩
  rw [List.mem_cons, not_or] at hprimary
  have hm : r.index ∉ (plain t).map Prod.fst := by rw [plain_keys]; exact hname
  match t, hne with
  | p :: t, _ =>
    have hp : (p.2.map (Cell.val (V := V))).length = n := by rw [List.length_map]; exact hn p (by simp)
    have hl : List.lookup r.primary ((r.index, (List.range n).map (fun i => Cell.val (w.number i))) :: plain (p :: t)) =
        none := by
      rw [List.lookup_cons, beq_false_of_ne hprimary.1]
      exact plain_none hprimary.2
    have e0 : resetIndex w r.index ⟨true, plain (p :: t), some (stamp w (referred (some (s, a)) attributes)), none⟩ =
        .ok ((r.index, (List.range n).map (fun i => Cell.val (w.number i))) :: plain (p :: t)) := by
      simp only [resetIndex, if_true, if_neg hm]
      simp only [plain, List.map_cons, hp]
    rw [decide_eq_true hindex, fromParquet, e0, ok_bind]
    simp only [geometryOf, hc, referred, hback, ok_bind, hl, hr, rename]
    rfl

/-- C116: the reference system of the file is what was given: a dictionary itself, or what the library knows about a
code; without one nothing is added to the attributes. -/
theorem C116_recorded (w : World V A S) (o : WriteOptions A) (output : Dict (Arr V)) (t : Dict (List V))
    (ht : Table output t) (attributes : Dict A) (hgeo : o.geoparquet = false) :
    (∀ a s, o.crs = .dict a → w.user a = .ok s → ∃ f after d, toParquet w o output attributes = .ok (f, after) ∧
      f.pyTMD = some d ∧ d.lookup "crs" = some a ∧ after.lookup "crs" = some a) ∧
    (∀ n s, o.crs = .code n → n ≠ 0 → w.epsg n = .ok s → ∃ f after d, toParquet w o output attributes = .ok (f, after) ∧
      f.pyTMD = some d ∧ d.lookup "crs" = some (w.json s) ∧ after.lookup "crs" = some (w.json s)) ∧
    (o.crs = .other ∨ o.crs = .code 0 → ∃ f after d, toParquet w o output attributes = .ok (f, after) ∧
      f.pyTMD = some d ∧ d.lookup "crs" = attributes.lookup "crs") ∧
    ∀ f after, toParquet w o output attributes = .ok (f, after) →
      after.lookup "date_created" = some w.now ∧ after.lookup "software_version" = some w.version ∧
        after.lookup "software_reference" = some w.reference ∧ f.pyTMD = some after := by
  have key : ∀ a, (stamp w (put "crs" a attributes)).lookup "crs" = some a := fun a =>
    (stamp_crs w _).trans (by rw [lookup_put, if_pos rfl])
  refine ⟨fun a s h hu => ?_, fun n s h hn hu => ?_, fun h => ?_, fun f after h => ?_⟩
  · refine ⟨_, _, _, toParquet_plain w o output t ht attributes (some (s, a)) ?_ hgeo, rfl, key a, key a⟩
    rw [h, reference, hu]; rfl
  · refine ⟨_, _, _, toParquet_plain w o output t ht attributes (some (s, w.json s)) ?_ hgeo, rfl, key _, key _⟩
    rw [h, reference, if_pos hn, hu]; rfl
  · refine ⟨_, _, _, toParquet_plain w o output t ht attributes none ?_ hgeo, rfl, stamp_crs w _⟩
    rcases h with h | h <;> rw [h] <;> rfl
  · cases hs : reference w o.crs with
    | error e => simp only [toParquet, ht.frame, hs, ok_bind, error_bind] at h; cases h
    | ok s =>
      rw [toParquet_plain w o output t ht attributes s hs hgeo] at h
      cases h
      refine ⟨?_, ?_, ?_, rfl⟩
      · rw [stamp, lookup_put, if_neg (by decide), lookup_put, if_neg (by decide), lookup_put, if_pos rfl]
      · rw [stamp, lookup_put, if_pos rfl]
      · rw [stamp, lookup_put, if_neg (by decide), lookup_put, if_pos rfl]

/-- C116: columns of different lengths are refused. -/
theorem C116_lengths (w : World V A S) (o : WriteOptions A) (t : Dict (List V)) (attributes : Dict A)
    (p q : String × List V) (hp : p ∈ t) (hq : q ∈ t) (h : p.2.length ≠ q.2.length) :
    toParquet w o (t.map fun p => (p.1, .line p.2)) attributes = .error .valueError := by
  have : pyMap column (t.map fun p => (p.1, Arr.line p.2)) = .ok t := by
    clear hp hq
    induction t with
    | nil => rfl
    | cons p t ih => rw [List.map_cons, pyMap, ih]; rfl
  have hf : frame (t.map fun p => (p.1, Arr.line p.2)) = .error .valueError := by
    rw [Parquet.frame, this]
    exact if_neg fun k => h (k p hp q hq)
  rw [toParquet, hf, error_bind]

/-- C116: longitudes and latitudes (or coordinates) of a table become points, and come back as the
columns `x` and `y`; the other columns come back unchanged. -/
theorem C116_points_partial (w : World V A S) (o : WriteOptions A) (r : ReadOptions) (output : Dict (Arr V))
    (t : Dict (List V)) (ht : Table output t) (attributes : Dict A) (s s' : S) (a : A)
    (hs : reference w o.crs = .ok (some (s, a))) (hback : w.user (w.json s) = .ok s')
    (hgeo : o.geoparquet = true) (henc : o.encoding = some "WKB") (hindex : o.index ≠ some true)
    (hprimary : o.primary ∉ t.map Prod.fst) (hxy : o.primary ≠ "x" ∧ o.primary ≠ "y") (hr : r.columns = none)
    (east north : String) (xs ys : List V) (hx : (east, xs) ∈ t) (hy : (north, ys) ∈ t)
    (he : east ∈ ["lon", "longitude", "x"]) (hn : north ∈ ["lat", "latitude", "y"])
    (honly : ∀ k ∈ t.map Prod.fst, k ∈ ["lon", "longitude", "x", "lat", "latitude", "y"] → k = east ∨ k = north) :
    ∃ f after fr d, toParquet w o output attributes = .ok (f, after) ∧ fromParquet w r f = .ok fr ∧
      fr.columns = (t.filter (fun p => p.1 ≠ east ∧ p.1 ≠ north)).map (fun p => (p.1, p.2.map .val)) ++
        [(o.primary, List.zipWith .point xs ys), ("x", xs.map .val), ("y", ys.map .val)] ∧
      fr.attrs.lookup "pyTMD" = some (.dict d) ∧
      (∀ k, k ∉ added → k ≠ east → k ≠ north → d.lookup k = attributes.lookup k) ∧
      fr.attrs.lookup "projection" = some (.srs s') ∧ fr.attrs.lookup "geoparquet" = some (.flag true) := by
  have hvars : geometryNames output = [east, north] := by
    have hm : ∀ v, v ∈ geometries → (decide (v ∈ output.map Prod.fst) = true ↔ v = east ∨ v = north) := by
      intro v hv
      rw [decide_eq_true_eq, ht.keys]
      constructor
      · exact fun h => honly v h hv
      · rintro (rfl | rfl)
        · exact List.mem_map.2 ⟨_, hx, rfl⟩
        · exact List.mem_map.2 ⟨_, hy, rfl⟩
    have : geometryNames output = geometries.filter fun v => v = east ∨ v = north :=
      List.filter_congr fun v hv => by
        rw [Bool.eq_iff_iff, hm v hv, decide_eq_true_eq]
    rw [this]
    simp only [List.mem_cons, List.not_mem_nil, or_false] at he hn
    rcases he with rfl | rfl | rfl <;> rcases hn with rfl | rfl | rfl <;> decide
  have hlx : t.lookup east = some xs := lookup_of_mem ht.names hx
  have hly : t.lookup north = some ys := lookup_of_mem ht.names hy
  have hlen : xs.length = ys.length := ht.length _ hx _ hy
  set rest := t.filter (fun p => p.1 ≠ east ∧ p.1 ≠ north) with hrest
  have hfilter : (t.filter fun p => p.1 ∉ [east, north]) = rest := by
    refine List.filter_congr fun p _ => ?_
    simp [not_or]
  have hsub : ∀ k, k ∈ rest.map Prod.fst → k ∈ t.map Prod.fst := by
    intro k hk
    obtain ⟨p, hp, rfl⟩ := List.mem_map.1 hk
    exact List.mem_map.2 ⟨p, (List.mem_filter.1 hp).1, rfl⟩
  have hno : ∀ k ∈ ["x", "y"], k ∉ rest.map Prod.fst := by
    intro k hk h
    have hg : k ∈ ["lon", "longitude", "x", "lat", "latitude", "y"] := by
      simp only [List.mem_cons, List.not_mem_nil, or_false] at hk ⊢
      tauto
    obtain ⟨p, hp, rfl⟩ := List.mem_map.1 h
    have h2 := (List.mem_filter.1 hp).2
    rw [decide_eq_true_eq] at h2
    rcases honly p.1 (hsub _ h) hg with h' | h'
    · exact h2.1 h'
    · exact h2.2 h'
  set g : List (Cell V) := List.zipWith .point xs ys
  have hput : put o.primary g (plain rest) = plain rest ++ [(o.primary, g)] :=
    put_absent _ _ _ (by rw [plain_keys]; exact fun h => hprimary (hsub _ h))
  have e1 : toParquet w o output attributes = .ok (⟨false, plain rest ++ [(o.primary, g)],
      some (stamp w ((put "crs" a attributes).filter fun p => p.1 ∉ [east, north])),
      some ⟨o.primary, "WKB", some (w.json s)⟩⟩,
      stamp w ((put "crs" a attributes).filter fun p => p.1 ∉ [east, north])) := by
    simp only [toParquet, ht.frame, hs, ok_bind, hgeo, henc, and_self, if_true, hvars, hlx, hly, Option.getD_some,
      hfilter, decide_eq_false hindex, referred]
    rw [hput]
  have hdec : pyMap decode g = .ok (xs.zip ys) := by
    have : ∀ (xs ys : List V), pyMap decode (List.zipWith Cell.point xs ys) = .ok (xs.zip ys) := by
      intro xs
      induction xs with
      | nil => intro ys; rfl
      | cons x xs ih =>
        intro ys
        cases ys with
        | nil => rfl
        | cons y ys =>
          rw [List.zipWith_cons_cons, pyMap, ih ys]
          rfl
    exact this xs ys
  have hlk : (plain rest ++ [(o.primary, g)]).lookup o.primary = some g :=
    lookup_of_mem (by
      rw [Distinct, List.map_append, plain_keys, List.nodup_append]
      refine ⟨ht.names.sublist (List.filter_sublist.map _), by simp, ?_⟩
      intro b hb c hc e
      rw [List.map_singleton, List.mem_singleton] at hc
      have hc : c = o.primary := hc
      exact hprimary (hsub _ (by rw [← hc, ← e]; exact hb))) (by simp)
  have hx1 : put "x" (xs.map Cell.val) (plain rest ++ [(o.primary, g)]) =
      (plain rest ++ [(o.primary, g)]) ++ [("x", xs.map Cell.val)] :=
    put_absent _ _ _ (by
      rw [List.map_append, plain_keys, List.mem_append, not_or]
      exact ⟨hno "x" (by simp), by simpa using fun h => hxy.1 h.symm⟩)
  have hy1 : put "y" (ys.map Cell.val) ((plain rest ++ [(o.primary, g)]) ++ [("x", xs.map Cell.val)]) =
      ((plain rest ++ [(o.primary, g)]) ++ [("x", xs.map Cell.val)]) ++ [("y", ys.map Cell.val)] :=
    put_absent _ _ _ (by
      rw [List.map_append, List.map_append, plain_keys, List.mem_append, List.mem_append, not_or, not_or]
      exact ⟨⟨hno "y" (by simp), by simpa using fun h => hxy.2 h.symm⟩, by simp⟩)
  have hfx : ((xs.zip ys).map fun p => Cell.val p.1) = xs.map Cell.val := by
    have : (fun p : V × V => Cell.val p.1) = Cell.val ∘ Prod.fst := rfl
    rw [this, ← List.map_map, List.map_fst_zip (Nat.le_of_eq hlen)]
  have hfy : ((xs.zip ys).map fun p => Cell.val p.2) = ys.map Cell.val := by
    have : (fun p : V × V => Cell.val p.2) = Cell.val ∘ Prod.snd := rfl
    rw [this, ← List.map_map, List.map_snd_zip (Nat.le_of_eq hlen.symm)]
  set kept := stamp w ((put "crs" a attributes).filter fun p => p.1 ∉ [east, north]) with hkept
  refine ⟨_, _, ⟨((plain rest ++ [(o.primary, g)]) ++ [("x", xs.map Cell.val)]) ++ [("y", ys.map Cell.val)],
    put "geoparquet" (.flag true) (put "wkt" (.srs s') (put "projection" (.srs s')
      (put "geometry_encoding" (.text "WKB") (put "geoparquet" (.flag false)
        [("pyTMD", .dict kept), ("geo", .geo ⟨o.primary, "WKB", some (w.json s)⟩)]))))⟩, kept, e1, ?_, ?_, rfl, ?_,
    rfl, rfl⟩
  · simp only [fromParquet, resetIndex, Bool.false_eq_true, if_false, ok_bind, geometryOf, hback, hlk, if_true, hdec,
      hfx, hfy, hx1, hy1, hr, rename]
    rfl
  · simp [plain]
  · intro k hk h1 h2
    rw [hkept, stamp_lookup w _ k hk]
    have hf : ∀ d : Dict A, (d.filter fun p => p.1 ∉ [east, north]).lookup k = d.lookup k := by
      intro d
      induction d with
      | nil => rfl
      | cons p d ih =>
        by_cases hp : p.1 ∉ [east, north]
        · rw [List.filter_cons_of_pos (by simpa using hp), List.lookup, List.lookup, ih]
        · rw [List.filter_cons_of_neg (by simpa using hp), ih, List.lookup]
          have : k ≠ p.1 := by
            rintro rfl
            exact hp (by simp [h1, h2])
          rw [beq_false_of_ne this]
    rw [hf, lookup_put, if_neg]
    rintro rfl
    exact hk (by simp [added])

/-- The hypotheses can be met: a table of longitudes, latitudes and tides, in a reference system with a
code. -/
example : ∃ (w : World Int String Int) (o : WriteOptions String) (t : Dict (List Int)),
    Table (t.map fun p => (p.1, .line p.2)) t ∧ reference w o.crs = .ok (some (4326, "4326")) ∧
      w.user "4326" = .ok 4326 ∧ w.user (w.json 4326) = .ok 4326 ∧ o.geoparquet = true ∧ o.encoding = some "WKB" ∧
      o.index ≠ some true ∧ o.primary ∉ t.map Prod.fst ∧ ("lon", [1, 2]) ∈ t ∧ ("lat", [3, 4]) ∈ t ∧
      ∀ k ∈ t.map Prod.fst, k ∈ ["lon", "longitude", "x", "lat", "latitude", "y"] → k = "lon" ∨ k = "lat" := by
  refine ⟨⟨fun n => .ok n, fun _ => .ok 4326, fun _ => "4326", fun n => n, "", "", ""⟩,
    { crs := .code 4326, geoparquet := true }, [("lon", [1, 2]), ("lat", [3, 4]), ("tide", [5, 6])],
    ⟨rfl, by decide, by decide⟩, rfl, rfl, rfl, rfl, rfl, by decide, by decide, by decide, by decide, by decide⟩

/-- C116 fails with the default keywords: a file is written for every table, but it has no reference
system, which the reader asks for. -/
theorem C116_default_false (w : World V A S) (r : ReadOptions) (output : Dict (Arr V)) (t : Dict (List V))
    (ht : Table output t) (attributes : Dict A) (hnone : attributes.lookup "crs" = none) :
    ∃ f after, toParquet w {} output attributes = .ok (f, after) ∧ fromParquet w r f = .error .keyError := by
  refine ⟨_, _, toParquet_plain w {} output t ht attributes none rfl rfl, ?_⟩
  have hc : (stamp w attributes).lookup "crs" = none := (stamp_crs w _).trans hnone
  have hi : decide ((none : Option Bool) = some true) = false := rfl
  simp only [fromParquet, resetIndex, hi, Bool.false_eq_true, if_false, ok_bind, geometryOf, referred, hc]
  rfl

/-- C116 fails for points without a reference system: the writer uses a variable that it has not set. -/
theorem C116_reference_false (w : World V A S) (o : WriteOptions A) (output : Dict (Arr V)) (t : Dict (List V))
    (ht : Table output t) (attributes : Dict A) (hs : o.crs = .other) (hgeo : o.geoparquet = true)
    (henc : o.encoding = some "WKB") (hlon : "lon" ∈ t.map Prod.fst) (hlat : "lat" ∈ t.map Prod.fst) :
    toParquet w o output attributes = .error .unbound := by
  have hm : ∀ k, k ∈ geometries → k ∈ t.map Prod.fst → k ∈ geometryNames output := fun k hk h =>
    List.mem_filter.2 ⟨hk, by rw [ht.keys]; exact decide_eq_true h⟩
  have h1 := hm "lon" (by decide) hlon
  have h2 := hm "lat" (by decide) hlat
  have : ∃ a b l, geometryNames output = a :: b :: l := by
    match geometryNames output, h1, h2 with
    | [a], h1, h2 =>
      rw [List.mem_singleton] at h1 h2
      exact absurd (h1.trans h2.symm) (by decide)
    | a :: b :: l, _, _ => exact ⟨a, b, l, rfl⟩
  obtain ⟨a, b, l, e⟩ := this
  simp only [toParquet, ht.frame, ok_bind, hs, reference, hgeo, henc, and_self, if_true, e, error_bind]

/-- C116 fails for a table with coordinates of a projection beside longitudes and latitudes: the points
are made of the longitude and the first coordinate, and the latitude and the second one are lost. -/
theorem C116_both_false (w : World V A S) (r : ReadOptions) (hr : r.columns = none) (attributes : Dict A) (n : Int)
    (hn : n ≠ 0) (s s' : S) (hs : w.epsg n = .ok s) (hback : w.user (w.json s) = .ok s') (lon lat x y : V) :
    ∃ f after fr, toParquet w { crs := .code n, geoparquet := true }
        [("x", .line [x]), ("y", .line [y]), ("lon", .line [lon]), ("lat", .line [lat])] attributes = .ok (f, after) ∧
      fromParquet w r f = .ok fr ∧
      fr.columns = [("geometry", [.point lon x]), ("x", [.val lon]), ("y", [.val x])] := by
  have ht : Table [("x", Arr.line [x]), ("y", .line [y]), ("lon", .line [lon]), ("lat", .line [lat])]
      [("x", [x]), ("y", [y]), ("lon", [lon]), ("lat", [lat])] :=
    ⟨rfl, by simp, by simp⟩
  have hg : geometryNames [("x", Arr.line [x]), ("y", .line [y]), ("lon", .line [lon]), ("lat", .line [lat])] =
      ["lon", "x", "lat", "y"] := by
    simp [geometryNames, geometries]
  have e1 : toParquet w { crs := .code n, geoparquet := true }
        [("x", .line [x]), ("y", .line [y]), ("lon", .line [lon]), ("lat", .line [lat])] attributes =
      .ok (⟨false, [("geometry", [.point lon x])], some (stamp w ((put "crs" (w.json s) attributes).filter
        fun p => p.1 ∉ ["lon", "x", "lat", "y"])), some ⟨"geometry", "WKB", some (w.json s)⟩⟩,
        stamp w ((put "crs" (w.json s) attributes).filter fun p => p.1 ∉ ["lon", "x", "lat", "y"])) := by
    simp only [toParquet, ht.frame, ok_bind, reference, if_pos hn, hs, hg, referred, and_self, if_true]
    rfl
  refine ⟨_, _, ⟨[("geometry", [.point lon x]), ("x", [.val lon]), ("y", [.val x])],
    put "geoparquet" (.flag true) (put "wkt" (.srs s') (put "projection" (.srs s')
      (put "geometry_encoding" (.text "WKB") (put "geoparquet" (.flag false)
        [("pyTMD", .dict (stamp w ((put "crs" (w.json s) attributes).filter fun p => p.1 ∉ ["lon", "x", "lat", "y"]))),
          ("geo", .geo ⟨"geometry", "WKB", some (w.json s)⟩)]))))⟩, e1, ?_, rfl⟩
  simp only [fromParquet, resetIndex, Bool.false_eq_true, if_false, ok_bind, geometryOf, hback, hr, rename]
  rfl

/-- C116 fails for a table with times whose index is written: the reader makes the index a column of
times and finds that there is one already. -/
theorem C116_index_false (w : World V A S) (o : WriteOptions A) (r : ReadOptions) (output : Dict (Arr V))
    (t : Dict (List V)) (ht : Table output t) (attributes : Dict A) (s : Option (S × A))
    (hs : reference w o.crs = .ok s) (hgeo : o.geoparquet = false) (hindex : o.index = some true)
    (htime : r.index ∈ t.map Prod.fst) :
    ∃ f after, toParquet w o output attributes = .ok (f, after) ∧ fromParquet w r f = .error .valueError := by
  refine ⟨_, _, toParquet_plain w o output t ht attributes _ hs hgeo, ?_⟩
  have hm : r.index ∈ (plain t).map Prod.fst := by rw [plain_keys]; exact htime
  simp only [fromParquet, resetIndex, decide_eq_true hindex, if_true, if_pos hm, error_bind]

/-- C116 fails for a table with a column of numbers called like the default column of points: the reader
takes them for encoded points. -/
theorem C116_name_false (w : World V A S) (o : WriteOptions A) (r : ReadOptions) (output : Dict (Arr V))
    (t : Dict (List V)) (ht : Table output t) (attributes : Dict A) (s s' : S) (a : A)
    (hs : reference w o.crs = .ok (some (s, a))) (hback : w.user a = .ok s')
    (hgeo : o.geoparquet = false) (hindex : o.index ≠ some true) (henc : r.encoding = "WKB") (v : V) (l : List V)
    (hcol : (r.primary, v :: l) ∈ t) :
    ∃ f after, toParquet w o output attributes = .ok (f, after) ∧ fromParquet w r f = .error .typeError := by
  refine ⟨_, _, toParquet_plain w o output t ht attributes _ hs hgeo, ?_⟩
  have hc : (stamp w (put "crs" a attributes)).lookup "crs" = some a :=
    (stamp_crs w _).trans (by rw [lookup_put, if_pos rfl])
  have hl : (plain t).lookup r.primary = some ((v :: l).map .val) :=
    lookup_of_mem (by rw [Distinct, plain_keys]; exact ht.names)
      (List.mem_map.2 ⟨_, hcol, rfl⟩)
  simp only [fromParquet, resetIndex, decide_eq_false hindex, Bool.false_eq_true, if_false, ok_bind, geometryOf, hc,
    referred, hback, hl, henc, if_true, List.map_cons, pyMap, decode, error_bind]

/-- C116: arrays of more than one axis, such as grids and time series of several stations, cannot be
written. -/
theorem C116_grid_false (w : World V A S) (o : WriteOptions A) (output : Dict (Arr V)) (attributes : Dict A)
    (k : String) (hk : (k, .wide) ∈ output) : toParquet w o output attributes = .error .valueError := by
  have : pyMap column output = .error .valueError := by
    induction output with
    | nil => exact absurd hk (by simp)
    | cons p l ih =>
      rw [pyMap]
      rcases List.mem_cons.1 hk with h | h
      · rw [← h]; rfl
      · rw [ih h]
        obtain ⟨q, _ | _⟩ := p <;> rfl
  simp only [toParquet, frame, this, error_bind]

/-- C116 fails for the attributes of the variables: no file gives an attribute `time`, where the programs
look for the units of time, although it is in the metadata of every file that was written with one. -/
theorem C116_units_false (w : World V A S) (r : ReadOptions) (f : File V A) (fr : Frame V A S)
    (h : fromParquet w r f = .ok fr) : fr.attrs.lookup "time" = none := by
  have h0 : (put "geoparquet" (.flag false) (metadata (S := S) f)).lookup "time" = none := by
    rw [lookup_put, if_neg (by decide), metadata]
    cases f.pyTMD <;> cases f.geo <;> simp
  have h1 : ∀ p e d, geometryOf w r f = .ok (p, e, d) → d.lookup "time" = none := by
    intro p e d hd
    rw [geometryOf] at hd
    split at hd
    · split at hd
      · cases hd
      · rename_i c _
        cases hu : w.user c with
        | error e => rw [hu] at hd; cases hd
        | ok s =>
          rw [hu] at hd
          cases hd
          simpa only [lookup_put, String.reduceEq, if_false] using h0
    · split at hd
      · cases hd
      · rename_i c _
        cases hu : w.user c with
        | error e => rw [hu] at hd; cases hd
        | ok s =>
          rw [hu] at hd
          cases hd
          simpa only [lookup_put, String.reduceEq, if_false] using h0
    · cases hd
      exact h0
  rw [fromParquet] at h
  cases hi : resetIndex w r.index f with
  | error e => rw [hi] at h; cases h
  | ok cols =>
    rw [hi, ok_bind] at h
    cases hg : geometryOf w r f with
    | error e => rw [hg] at h; cases h
    | ok x =>
      obtain ⟨p, e, d⟩ := x
      have hd := h1 p e d hg
      rw [hg, ok_bind] at h
      dsimp only at h
      split at h
      · split at h
        · rename_i g _ _
          cases hp : pyMap decode g with
          | error e => rw [hp] at h; cases h
          | ok ps =>
            rw [hp] at h
            cases h
            rw [lookup_put, if_neg (by decide)]
            exact hd
        · cases h; exact hd
      · cases h; exact hd

/-- C116 fails for files of other programs whose points are longitudes and latitudes by default: the
format allows to leave out the reference system, the reader asks for it. -/
theorem C116_foreign_false (w : World V A S) (r : ReadOptions) (f : File V A) (g : Geo A) (hi : f.index = false)
    (hg : f.geo = some g) (hc : g.crs = none) : fromParquet w r f = .error .keyError := by
  simp only [fromParquet, resetIndex, hi, Bool.false_eq_true, if_false, ok_bind, geometryOf, hg, hc, error_bind]

/-- Names of columns are changed after everything else. -/
theorem fromParquet_columns (w : World V A S) (r : ReadOptions) (f : File V A) (fr : Frame V A S)
    (hr : r.columns = none) (h : fromParquet w r f = .ok fr) (names : Option (List String)) :
    fromParquet w { r with columns := names } f = .ok ⟨rename names fr.columns, fr.attrs⟩ := by
  rw [fromParquet] at h ⊢
  cases hi : resetIndex w r.index f with
  | error e => rw [hi] at h; cases h
  | ok cols =>
    rw [hi, ok_bind] at h
    have hg' : geometryOf w { r with columns := names } f = geometryOf w r f := rfl
    cases hg : geometryOf w r f with
    | error e => rw [hg] at h; cases h
    | ok x =>
      obtain ⟨p, e, d⟩ := x
      rw [hg, ok_bind] at h
      dsimp only at h ⊢
      rw [ok_bind, hg', hg, ok_bind]
      dsimp only
      split at h
      · rename_i g hgl
        split at h
        · rename_i he
          cases hp : pyMap decode g with
          | error e => rw [hp] at h; cases h
          | ok ps =>
            rw [hp, ok_bind] at h
            cases h
            rw [if_pos he, ok_bind, hr]
            rfl
        · rename_i he
          cases h
          rw [if_neg he, hr]
          rfl
      · rename_i hgl
        cases h
        rw [hr]
        rfl

/-- C116: the table of a program (places, values, times) is found under the names of its columns, whether
it has been written with points or without. -/
theorem C116_program (w : World V A S) (attributes : Dict A) (geoparquet : Bool) (s s' : S)
    (hs : w.epsg 4326 = .ok s) (hback : w.user (w.json s) = .ok s') (name : String)
    (hname : name ∉ ["lon", "longitude", "x", "lat", "latitude", "y", "time", "data", "geometry"])
    (lon lat tide time : List V) (h1 : lat.length = lon.length) (h2 : tide.length = lon.length)
    (h3 : time.length = lon.length) :
    ∃ f after fr, toParquet w { crs := .code 4326, geoparquet := geoparquet }
        [("lon", .line lon), ("lat", .line lat), (name, .line tide), ("time", .line time)] attributes = .ok (f, after) ∧
      fromParquet w { columns := some ["time", "lat", "lon", "data"] } f = .ok fr ∧
      fr.columns.lookup "time" = some (time.map .val) ∧ fr.columns.lookup "x" = some (lon.map .val) ∧
      fr.columns.lookup "y" = some (lat.map .val) ∧ fr.columns.lookup name = some (tide.map .val) := by
  simp only [List.mem_cons, List.not_mem_nil, or_false, not_or] at hname
  obtain ⟨n1, n2, n3, n4, n5, n6, n7, n8, n9⟩ := hname
  have ht : Table [("lon", Arr.line lon), ("lat", .line lat), (name, .line tide), ("time", .line time)]
      [("lon", lon), ("lat", lat), (name, tide), ("time", time)] :=
    ⟨rfl, by simp [n1, n4, n7, Ne.symm n1, Ne.symm n4], by simp [h1, h2, h3]⟩
  have hmap : inverse (defaultMapping ["time", "lat", "lon", "data"]) =
      [("time", "time"), ("lat", "y"), ("lon", "x"), ("data", "data")] := by decide
  have hren : ∀ cols : Dict (List (Cell V)), rename (some ["time", "lat", "lon", "data"]) cols =
      cols.map fun p => ((([("time", "time"), ("lat", "y"), ("lon", "x"), ("data", "data")] :
        Dict String).lookup p.1).getD p.1, p.2) := by
    intro cols
    rw [rename, hmap]
  cases geoparquet with
  | false =>
    obtain ⟨f, after, fr, d, e1, e2, e3, -⟩ := C116_table_partial w { crs := .code 4326 } {} _ _ ht attributes s s'
      (w.json s) (by simp only [reference, hs, ok_bind]; rfl) hback rfl (by simp) (by
        simp only [List.map_cons, List.map_nil, List.mem_cons, List.not_mem_nil, or_false, not_or]
        exact ⟨by decide, by decide, fun h => n9 h.symm, by decide⟩) rfl
    refine ⟨f, after, _, e1, fromParquet_columns w {} f fr rfl e2 _, ?_⟩
    dsimp only
    rw [e3, hren]
    simp [n1, n3, n4, n6, n7, n8, Ne.symm n3, Ne.symm n6, Ne.symm n7, Ne.symm n1, Ne.symm n4, List.lookup,
      beq_false_of_ne n1, beq_false_of_ne n4, beq_false_of_ne n7, beq_false_of_ne n8, beq_false_of_ne n3,
      beq_false_of_ne n6, beq_false_of_ne (Ne.symm n3), beq_false_of_ne (Ne.symm n6), beq_false_of_ne (Ne.symm n7)]
  | true =>
    obtain ⟨f, after, fr, d, e1, e2, e3, -⟩ := C116_points_partial w { crs := .code 4326, geoparquet := true } {} _ _ ht
      attributes s s' (w.json s) (by simp only [reference, hs, ok_bind]; rfl) hback rfl rfl (by simp) (by
        simp only [List.map_cons, List.map_nil, List.mem_cons, List.not_mem_nil, or_false, not_or]
        exact ⟨by decide, by decide, fun h => n9 h.symm, by decide⟩) (by simp) rfl "lon" "lat" lon lat (by simp) (by simp)
      (by decide) (by decide) (by
        simp only [List.map_cons, List.map_nil, List.mem_cons, List.not_mem_nil, or_false]
        rintro k (rfl | rfl | rfl | rfl) h
        · exact .inl rfl
        · exact .inr rfl
        · exact absurd h (by simp [n1, n2, n3, n4, n5, n6])
        · exact absurd h (by decide))
    refine ⟨f, after, _, e1, fromParquet_columns w {} f fr rfl e2 _, ?_⟩
    dsimp only
    rw [e3, hren]
    have hf : ([("lon", lon), ("lat", lat), (name, tide), ("time", time)].filter
        fun p : String × List V => p.1 ≠ "lon" ∧ p.1 ≠ "lat") = [(name, tide), ("time", time)] := by
      simp [n1, n4]
    rw [hf]
    simp [n1, n3, n4, n6, n7, n8, Ne.symm n3, Ne.symm n6, Ne.symm n7, Ne.symm n1, Ne.symm n4, List.lookup,
      beq_false_of_ne n1, beq_false_of_ne n4, beq_false_of_ne n7, beq_false_of_ne n8, beq_false_of_ne n3,
      beq_false_of_ne n6, beq_false_of_ne (Ne.symm n3), beq_false_of_ne (Ne.symm n6), beq_false_of_ne (Ne.symm n7)]

/-- C116: every format that can be written can be read, by the reader that belongs to its writer; other
names are refused, also `csv`, as the programs call tables of text. -/
theorem C116_formats (format : String) (kind : Kind) :
    (reader format = .ok kind ↔ writer format = .ok kind) ∧
      (reader format = .ok kind ↔ (format, kind) ∈ [("ascii", .ascii), ("netCDF4", .netCDF4), ("HDF5", .HDF5),
        ("GTiff", .geotiff), ("cog", .geotiff), ("parquet", .parquet)]) ∧
      reader "csv" = .error .valueError := by
  refine ⟨Iff.rfl, ?_, by decide⟩
  simp only [reader, List.mem_cons, List.not_mem_nil, or_false, Prod.mk.injEq]
  split_ifs <;> simp_all [eq_comm]
  rename_i h
  rcases h with rfl | rfl <;> simp

end Verif.Parquet
