import Verif.Lemmas.Tracker
import Mathlib.Tactic.FieldSimp
import Mathlib.Analysis.Real.Pi.Bounds
import Mathlib.Tactic.Ring
import Mathlib.Tactic.Positivity
/-! Properties C30, C31, C55: constructing a tracker. -/
namespace MarEx
open Spec

/-- The array after a successful `_unify_coordinates`. -/
theorem unify_ok {a : Args} {rad : Bool} {lat lon : List ℚ} {d : Arr} :
    unifyCoordinates a = (.ok (rad, lat, lon), d) ↔
      a.data.Reads a.ycoord lat ∧ a.data.Reads a.xcoord lon ∧ UnitsAre (2 * npPi) a.regional a.units lon rad ∧
      ((rad = false ∧ d = a.data) ∨
       (rad = true ∧ ∃ l, (setCoord a.data a.xcoord (toDegrees lon)).Reads a.ycoord l ∧
          d = setCoord (setCoord a.data a.xcoord (toDegrees lon)) a.ycoord (toDegrees l))) := by
  rw [← readCoord_ok, ← readCoord_ok, ← resolveUnits_ok]
  unfold unifyCoordinates
  cases h1 : readCoord a.data a.ycoord with
  | error e => simp
  | ok la => cases h2 : readCoord a.data a.xcoord with
    | error e => simp
    | ok lo =>
      dsimp only
      cases h3 : resolveUnits a.regional a.units lo with
      | error e =>
        simp only [Prod.mk.injEq, reduceCtorEq, false_and, false_iff, not_and]
        intro _ hlo
        cases hlo
        rw [h3]
        intro h; cases h
      | ok r =>
        cases r with
        | false =>
          simp only [Prod.mk.injEq, Except.ok.injEq]
          constructor
          · rintro ⟨⟨rfl, rfl, rfl⟩, rfl⟩; exact ⟨rfl, rfl, h3, .inl ⟨rfl, rfl⟩⟩
          · rintro ⟨rfl, rfl, h4, h5⟩
            rw [h3] at h4
            cases h4
            rcases h5 with ⟨_, rfl⟩ | ⟨h, _⟩
            · exact ⟨⟨rfl, rfl, rfl⟩, rfl⟩
            · cases h
        | true =>
          dsimp only
          cases h6 : readCoord (setCoord a.data a.xcoord (toDegrees lo)) a.ycoord with
          | error e =>
            simp only [Prod.mk.injEq, reduceCtorEq, false_and, false_iff, not_and, Except.ok.injEq]
            rintro rfl rfl h4 h5
            rw [h3] at h4
            cases h4
            rcases h5 with ⟨h, _⟩ | ⟨_, l, hl, _⟩
            · cases h
            · rw [← readCoord_ok, h6] at hl; cases hl
          | ok l =>
            simp only [Prod.mk.injEq, Except.ok.injEq]
            constructor
            · rintro ⟨⟨rfl, rfl, rfl⟩, rfl⟩
              exact ⟨rfl, rfl, h3, .inr ⟨rfl, l, readCoord_ok.mp h6, rfl⟩⟩
            · rintro ⟨rfl, rfl, h4, h5⟩
              rw [h3] at h4
              cases h4
              rcases h5 with ⟨h, _⟩ | ⟨_, l', hl, rfl⟩
              · cases h
              · rw [← readCoord_ok, h6] at hl
                cases hl
                exact ⟨⟨rfl, rfl, rfl⟩, rfl⟩

theorem setCoord_reads_exists {d : Arr} {k j : String} {v l : List ℚ} (h : d.Reads j l) : ∃ l', (setCoord d k v).Reads j l' := by
  unfold Arr.Reads setCoord at *
  by_cases hk : j = k
  · subst hk; exact ⟨v, .inl (by simp)⟩
  · refine ⟨l, ?_⟩
    simpa [Function.update_of_ne hk] using h

theorem setCoord_isSome {d : Arr} {k j : String} {v : List ℚ} :
    ((setCoord d k v).coord j).isSome = true ↔ j = k ∨ (d.coord j).isSome = true := by
  unfold setCoord
  by_cases hk : j = k
  · subst hk; simp
  · simp [Function.update_of_ne hk, hk]

/-- The array differs from the caller's only in its coordinate values. -/
theorem unify_shape {a : Args} {x : Bool × List ℚ × List ℚ} {d : Arr} (h : unifyCoordinates a = (.ok x, d)) :
    d.dims = a.data.dims ∧ d.chunks = a.data.chunks ∧ d.boolean = a.data.boolean := by
  obtain ⟨rad, lat, lon⟩ := x
  obtain ⟨_, _, _, h⟩ := unify_ok.mp h
  rcases h with ⟨_, rfl⟩ | ⟨_, l, _, rfl⟩ <;> simp [setCoord]

theorem construct_ok {a : Args} {t : Tracker} {d : Arr} :
    construct a = (.ok t, d) ↔ ∃ rad lat lon, unifyCoordinates a = (.ok (rad, lat, lon), d) ∧
      ∃ c, resolveCriterion a.quartile a.absolute = .ok c ∧ ∃ ch, d.chunks = some ch ∧ a.timedim ∈ d.dims ∧ validateInputs a d c = .ok () ∧
      (a.unstructured = true → setupUnstructured a d = .ok ()) ∧
      t = { radians := rad, latInit := lat, lonInit := lon, rFill := pyInt a.rFill, tFill := a.tFill, criterion := c
            timechunks := (chunksOfDim d.dims ch a.timedim).headD 0, dims := expectedDims a
            chunks := rechunkSpatial (if a.unstructured then [a.xdim] else [a.xdim, a.ydim]) (expectedDims a)
              ((expectedDims a).map (chunksOfDim d.dims ch))
            nbCols := (a.neighbours.map NbArr.cols).getD 0, nbChunks := (a.neighbours.bind NbArr.chunks).getD [], areaChunks := a.areaChunks } := by
  unfold construct
  cases hu : unifyCoordinates a with
  | mk r d' =>
    cases r with
    | error e => simp
    | ok x =>
      obtain ⟨rad, lat, lon⟩ := x
      simp only [Prod.mk.injEq, except_bind_ok, require_ok, Except.ok.injEq]
      constructor
      · rintro ⟨⟨c, hc, ch, hch, _, hd, u, hv, u', hs, ht⟩, rfl⟩
        refine ⟨rad, lat, lon, ⟨⟨rfl, rfl, rfl⟩, rfl⟩, c, hc, ch, ?_, hd, hv, ?_, ht.symm⟩
        · cases h : d'.chunks <;> rw [h] at hch <;> simp_all [requireChunks]
        · intro h; unfold setupGrid at hs; rw [if_pos h] at hs; exact hs
      · rintro ⟨_, _, _, ⟨⟨rfl, rfl, rfl⟩, rfl⟩, c, hc, ch, hch, hd, hv, hs, ht⟩
        refine ⟨⟨c, hc, ch, by rw [hch]; rfl, (), hd, (), hv, (), ?_, ht.symm⟩, rfl⟩
        unfold setupGrid
        by_cases h : a.unstructured = true
        · rw [if_pos h]; exact hs h
        · rw [if_neg h]

/-- `_validate_inputs` succeeds iff all its conditions hold. -/
theorem validate_ok {a : Args} {d : Arr} {c : AreaCriterion} : validateInputs a d c = .ok () ↔
    ¬ (a.regional = true ∧ a.unstructured = true) ∧ d.dims.Perm (expectedDims a) ∧
    ((d.coord a.timecoord).isSome ∧ (d.coord a.xcoord).isSome ∧ (d.coord a.ycoord).isSome) ∧ d.boolean = true ∧
    (if a.unstructured = true then a.tempDir.isSome = true ∧ a.neighbours.isSome = true ∧ a.cellAreas.isSome = true
      else ∀ ds, a.cellAreas = some ds → (∀ x ∈ ds, x ∈ [a.ydim, a.xdim]) ∧ ∀ x ∈ [a.ydim, a.xdim], x ∈ ds) ∧
    (∀ r, a.gridResolution = some r → a.unstructured = false ∧ ∃ v, r = some v ∧ 0 < v) ∧
    a.mask.boolean = true ∧ a.mask.anyTrue = true ∧
    (match c with | .quartile q => ¬ (q < 0 ∨ q > 1) | .absolute x => ¬ x ≤ 0) ∧ a.tFill % 2 = 0 := by
  have e1 : ∀ u : Unit, checkArrays a = .ok u ↔
      (if a.unstructured = true then a.tempDir.isSome = true ∧ a.neighbours.isSome = true ∧ a.cellAreas.isSome = true
      else ∀ ds, a.cellAreas = some ds → (∀ x ∈ ds, x ∈ [a.ydim, a.xdim]) ∧ ∀ x ∈ [a.ydim, a.xdim], x ∈ ds) := by
    intro u
    unfold checkArrays
    by_cases h : a.unstructured = true
    · rw [if_pos h, if_pos h]; simp only [require_bind, require_ok]
    · rw [if_neg h, if_neg h]
      cases a.cellAreas with
      | none => simp
      | some ds => simp only [require_ok, Option.some.injEq, forall_eq']
  have e2 : ∀ u : Unit, checkResolution a = .ok u ↔
      (∀ r, a.gridResolution = some r → a.unstructured = false ∧ ∃ v, r = some v ∧ 0 < v) := by
    intro u
    unfold checkResolution
    cases a.gridResolution with
    | none => simp
    | some r => cases r with
      | none => simp only [require_bind, Option.some.injEq, forall_eq']; simp
      | some v => simp only [require_bind, require_ok, Option.some.injEq, forall_eq', exists_eq_left']
  have e3 : ∀ u : Unit, checkCriterion c = .ok u ↔ (match c with | .quartile q => ¬ (q < 0 ∨ q > 1) | .absolute x => ¬ x ≤ 0) := by
    intro u
    cases c <;> exact require_ok
  unfold validateInputs
  simp only [require_ok, except_bind_ok, e1, e2, e3, exists_const]

theorem setup_ok {a : Args} {d : Arr} : setupUnstructured a d = .ok () ↔
    a.tempDir ≠ some "" ∧ ((d.coord a.xcoord).isSome ∧ (d.coord a.ycoord).isSome) ∧ (a.xcoord ∈ a.mask.coords ∧ a.ycoord ∈ a.mask.coords) ∧
    ∃ nb, a.neighbours = some nb ∧ nb.rows = 3 ∧ nb.dims = ["nv", a.xdim] ∧ nb.chunks.isSome ∧ nb.maxEntry ≤ nb.cols := by
  unfold setupUnstructured
  simp only [require_bind]
  refine and_congr Iff.rfl (and_congr Iff.rfl (and_congr Iff.rfl ?_))
  cases a.neighbours with
  | none => simp
  | some nb => simp only [require_bind, require_ok, Option.some.injEq, exists_eq_left']

end MarEx

namespace MarEx.Props
open MarEx Spec

/-- **C30**: the constructor succeeds exactly for the supported configurations. -/
theorem C30_accepts_iff (a : Args) : (∃ t, (construct a).1 = .ok t) ↔ Supported (2 * npPi) a := by
  constructor
  · rintro ⟨t, ht⟩
    obtain ⟨rad, lat, lon, hu, c, hc, ch, hch, htd, hv, hs, -⟩ := construct_ok.mp (Prod.ext ht rfl : construct a = (.ok t, (construct a).2))
    obtain ⟨hd1, hd2, hd3⟩ := unify_shape hu
    obtain ⟨u1, u2, u3, u4⟩ := unify_ok.mp hu
    obtain ⟨v1, v2, v3, v4, v5, v6, v7, v8, v9, v10⟩ := validate_ok.mp hv
    refine ⟨⟨lon, lat, rad, u2, u1, u3, ?_⟩, ?_, ?_, v1, ?_, ?_, hd3 ▸ v4, ⟨v7, v8⟩, ⟨a.tFill / 2, by omega⟩, ?_, ?_⟩
    · rintro rfl
      rcases u4 with ⟨_, h⟩ | ⟨h, _⟩
      · rw [← h]; exact ⟨v3.2.1, v3.2.2⟩
      · cases h
    · revert hc v9
      cases a.quartile <;> cases a.absolute <;> simp only [resolveCriterion, Except.ok.injEq, reduceCtorEq, false_implies] <;> rintro rfl <;> simp
    · rw [← hd2, hch]; rfl
    · rw [← hd1]; exact v2
    · rcases u4 with ⟨_, h⟩ | ⟨_, l, _, h⟩
      · rw [← h]; exact .inl v3.1
      · have := v3.1
        rw [h, setCoord_isSome, setCoord_isSome] at this
        tauto
    · intro hm
      rw [if_pos hm] at v5
      obtain ⟨s1, _, s3, s4⟩ := setup_ok.mp (hs hm)
      obtain ⟨dd, hdd⟩ := Option.isSome_iff_exists.mp v5.1
      refine ⟨⟨dd, hdd, fun h => s1 (by rw [hdd, h])⟩, s4, v5.2.2, ?_, s3.1, s3.2⟩
      cases hg : a.gridResolution with
      | none => rfl
      | some r => have := (v6 r hg).1; rw [hm] at this; cases this
    · intro hm
      rw [if_neg (by simp [hm])] at v5
      refine ⟨fun ds hds x => ?_, fun r hr => (v6 r hr).2⟩
      have := v5 ds hds
      constructor
      · intro hx; simpa using this.1 x hx
      · intro hx; exact this.2 x (by simpa using hx)
  · intro h
    obtain ⟨lon, lat, rad, u2, u1, u3, u4⟩ := h.units
    have hu : ∃ d, unifyCoordinates a = (.ok (rad, lat, lon), d) ∧ (d.coord a.xcoord).isSome ∧ (d.coord a.ycoord).isSome ∧
        (d.coord a.timecoord).isSome := by
      cases rad with
      | false =>
        refine ⟨a.data, unify_ok.mpr ⟨u1, u2, u3, .inl ⟨rfl, rfl⟩⟩, (u4 rfl).1, (u4 rfl).2, ?_⟩
        rcases h.timecoord with h | h | h
        · exact h
        · rw [h]; exact (u4 rfl).1
        · rw [h]; exact (u4 rfl).2
      | true =>
        obtain ⟨l, hl⟩ := setCoord_reads_exists (k := a.xcoord) (v := toDegrees lon) u1
        refine ⟨_, unify_ok.mpr ⟨u1, u2, u3, .inr ⟨rfl, l, hl, rfl⟩⟩, ?_, ?_, ?_⟩
        · rw [setCoord_isSome, setCoord_isSome]; tauto
        · rw [setCoord_isSome]; tauto
        · rw [setCoord_isSome, setCoord_isSome]
          have := h.timecoord
          tauto
    obtain ⟨d, hu, hx, hy, ht⟩ := hu
    obtain ⟨hd1, hd2, hd3⟩ := unify_shape hu
    obtain ⟨ch, hch⟩ := Option.isSome_iff_exists.mp h.chunked
    have hc : ∃ c, resolveCriterion a.quartile a.absolute = .ok c ∧
        (match c with | .quartile q => ¬ (q < 0 ∨ q > 1) | .absolute x => ¬ x ≤ 0) := by
      obtain ⟨h1, h2, h3⟩ := h.area
      cases hq : a.quartile with
      | none => cases hab : a.absolute with
        | none => exact ⟨_, rfl, by norm_num⟩
        | some x => exact ⟨_, rfl, not_le.mpr (h3 x hab)⟩
      | some q => cases hab : a.absolute with
        | none =>
          refine ⟨_, rfl, ?_⟩
          have := h2 q hq
          rintro (h | h) <;> linarith
        | some x => exact absurd ⟨by rw [hq]; rfl, by rw [hab]; rfl⟩ h1
    obtain ⟨c, hc, hc'⟩ := hc
    obtain ⟨k, hk⟩ := h.tFill
    have hmesh : a.unstructured = true → setupUnstructured a d = .ok () := by
      intro hm
      obtain ⟨⟨dd, m1, m2⟩, m3, m4, m5, m6, m7⟩ := h.mesh hm
      exact setup_ok.mpr ⟨by rw [m1]; simpa using m2, ⟨hx, hy⟩, ⟨m6, m7⟩, m3⟩
    have hval : validateInputs a d c = .ok () := by
      refine validate_ok.mpr ⟨h.regional, by rw [hd1]; exact h.dims, ⟨ht, hx, hy⟩, by rw [hd3]; exact h.boolean, ?_, ?_, h.mask.1, h.mask.2, hc', by omega⟩
      · by_cases hm : a.unstructured = true
        · rw [if_pos hm]
          obtain ⟨⟨dd, m1, m2⟩, ⟨nb, m3, _⟩, m4, _⟩ := h.mesh hm
          exact ⟨by rw [m1]; rfl, by rw [m3]; rfl, m4⟩
        · rw [if_neg hm]
          intro ds hds
          have := (h.grid (by simpa using hm)).1 ds hds
          exact ⟨fun x hx => by simpa using (this x).mp hx, fun x hx => (this x).mpr (by simpa using hx)⟩
      · intro r hr
        have hm : a.unstructured = false := by
          by_contra hm
          have := (h.mesh (by simpa using hm)).2.2.2.1
          rw [hr] at this
          cases this
        exact ⟨hm, (h.grid hm).2 r hr⟩
    have htd : a.timedim ∈ d.dims := by
      rw [hd1, h.dims.mem_iff]
      split <;> simp
    have := construct_ok.mpr ⟨rad, lat, lon, hu, c, hc, ch, by rw [hd2]; exact hch, htd, hval, hmesh, rfl⟩
    exact ⟨_, congrArg Prod.fst this⟩

/-- A supported global 360-column structured configuration in degrees. -/
def gridArgs : Args :=
  { data := { dims := ["lat", "time", "lon"], size := fun k => if k = "lon" then 360 else 4, chunks := some [[2, 2], [3, 1], [360]], boolean := true
              coord := fun k => if k = "lon" then some ((List.range 360).map fun (i : Nat) => (i : ℚ)) else if k = "lat" then some [-45, -15, 15, 45]
                else if k = "time" then some [0, 1, 2, 3] else none }
    mask := ⟨true, true, []⟩, rFill := 17 / 2, tFill := 2, quartile := none, absolute := some 10, unstructured := false
    dimensions := ⟨none, none, none⟩, coordinates := ⟨none, none, none⟩, tempDir := none, neighbours := none, cellAreas := none, areaChunks := []
    gridResolution := some (some (1 / 4)), regional := false, units := none }

example : (match (construct gridArgs).1 with
    | .ok t => (t.radians, t.rFill, t.timechunks, t.dims, t.chunks) == (false, 8, 3, ["time", "lat", "lon"], [[3, 1], [4], [360]])
    | .error _ => false) = true := by decide +kernel

/-- A supported mesh configuration in radians. -/
def meshArgs : Args :=
  { data := { dims := ["time", "cell"], size := fun _ => 2, chunks := some [[2], [2]], boolean := true
              coord := fun k => if k = "lon" then some [0, 1] else if k = "lat" then some [0, 1] else if k = "time" then some [0, 1] else none }
    mask := ⟨true, true, ["lat", "lon"]⟩, rFill := 3, tFill := 4, quartile := some (1 / 4), absolute := none, unstructured := true
    dimensions := ⟨none, some "cell", none⟩, coordinates := ⟨none, none, none⟩, tempDir := some "/tmp", neighbours := some ⟨["nv", "cell"], 3, 2, 2, some [[3], [2]]⟩
    cellAreas := some ["cell"], areaChunks := [[2]], gridResolution := none, regional := false, units := some "radians" }

example : (match (construct meshArgs).1 with
    | .ok t => (t.radians, t.rFill, t.timechunks, t.chunks) == (true, 3, 2, [[2], [2]])
    | .error _ => false) = true := by decide +kernel

/-- **C30**: what a constructed tracker guarantees to the later stages: even gap length, an area criterion in range, the chunk length of
the time dimension wherever it stands, the dimensions in the expected order, and a single chunk along every spatial dimension. -/
theorem C30_constructed_state (a : Args) (t : Tracker) (h : (construct a).1 = .ok t) :
    t.tFill = a.tFill ∧ (∃ k, t.tFill = 2 * k) ∧
    (match t.criterion with | .quartile q => 0 ≤ q ∧ q ≤ 1 | .absolute x => 0 < x) ∧
    t.dims = (if a.unstructured then [a.timedim, a.xdim] else [a.timedim, a.ydim, a.xdim]) ∧
    (∃ ch, a.data.chunks = some ch ∧ t.timechunks = ((ch[a.data.dims.idxOf a.timedim]?).getD []).headD 0) ∧
    t.chunks.length = t.dims.length ∧
    ∀ (i : Nat) (d : String) (cs : List Nat), t.dims[i]? = some d → t.chunks[i]? = some cs → (d = a.xdim ∨ (a.unstructured = false ∧ d = a.ydim)) → cs.length ≤ 1 := by
  obtain ⟨rad, lat, lon, hu, c, hc, ch, hch, htd, hv, hs, rfl⟩ := construct_ok.mp (Prod.ext h rfl : construct a = (.ok t, (construct a).2))
  obtain ⟨hd1, hd2, hd3⟩ := unify_shape hu
  obtain ⟨v1, v2, v3, v4, v5, v6, v7, v8, v9, v10⟩ := validate_ok.mp hv
  refine ⟨rfl, ⟨a.tFill / 2, by dsimp only; omega⟩, ?_, rfl, ⟨ch, by rw [← hd2]; exact hch, by dsimp only; rw [hd1]; rfl⟩, by simp [rechunkSpatial], ?_⟩
  · dsimp only
    revert v9
    cases c <;> simp
  · intro i d cs hd hcs hsp
    dsimp only at hcs hd
    unfold rechunkSpatial at hcs
    rw [List.getElem?_map, hd] at hcs
    simp only [Option.map_some, Option.some.injEq] at hcs
    have hmem : d ∈ (if a.unstructured = true then [a.xdim] else [a.xdim, a.ydim]) := by
      rcases hsp with rfl | ⟨hm, rfl⟩
      · split <;> simp
      · simp [hm]
    rw [← hcs]
    generalize (if a.unstructured = true then [a.xdim] else [a.xdim, a.ydim]) = sp at hmem
    split
    · simp
    · rename_i hn
      by_contra hlen
      exact hn ⟨hmem, by omega⟩

/-- **C30**: the settings in force are the caller's: the area criterion as given (the median if none was), the fill radius with its fraction
dropped, and along every dimension the caller's cells: time chunks as they were, spatial chunks joined. -/
theorem C30_settings_in_force (a : Args) (t : Tracker) (h : (construct a).1 = .ok t) :
    ((a.quartile = none ∧ a.absolute = none ∧ t.criterion = .quartile (1 / 2)) ∨
      (∃ q, a.quartile = some q ∧ a.absolute = none ∧ t.criterion = .quartile q) ∨
      (∃ x, a.quartile = none ∧ a.absolute = some x ∧ t.criterion = .absolute x)) ∧
    (0 ≤ a.rFill → (t.rFill : ℚ) ≤ a.rFill ∧ a.rFill < t.rFill + 1) ∧
    (a.rFill < 0 → a.rFill ≤ t.rFill ∧ (t.rFill : ℚ) < a.rFill + 1) ∧
    ∃ ch, a.data.chunks = some ch ∧ ∀ (i : Nat) (d : String) (cs : List Nat), t.dims[i]? = some d → t.chunks[i]? = some cs →
      cs.sum = ((ch[a.data.dims.idxOf d]?).getD []).sum ∧
      (d ≠ a.xdim → d ≠ a.ydim → cs = (ch[a.data.dims.idxOf d]?).getD []) := by
  obtain ⟨rad, lat, lon, hu, c, hc, ch, hch, htd, hv, hs, rfl⟩ := construct_ok.mp (Prod.ext h rfl : construct a = (.ok t, (construct a).2))
  obtain ⟨hd1, hd2, hd3⟩ := unify_shape hu
  refine ⟨?_, ?_, ?_, ch, by rw [← hd2]; exact hch, ?_⟩
  · dsimp only
    revert hc
    cases a.quartile <;> cases a.absolute <;> simp [resolveCriterion, eq_comm]
  · intro h0
    dsimp only
    rw [pyInt, if_pos h0]
    exact ⟨Int.floor_le _, Int.lt_floor_add_one _⟩
  · intro h0
    dsimp only
    rw [pyInt, if_neg (not_le.mpr h0)]
    exact ⟨Int.le_ceil _, Int.ceil_lt_add_one _⟩
  · intro i d cs hd hcs
    dsimp only at hcs hd
    have hmem : d ∈ expectedDims a := List.mem_of_getElem? hd
    have hidx : (expectedDims a).idxOf d < (expectedDims a).length := List.idxOf_lt_length_of_mem hmem
    have e : chunksOfDim (expectedDims a) ((expectedDims a).map (chunksOfDim (construct a).2.dims ch)) d =
        (ch[a.data.dims.idxOf d]?).getD [] := by
      unfold chunksOfDim
      rw [List.getElem?_map, List.getElem?_eq_getElem hidx, List.getElem_idxOf hidx, Option.map_some, Option.getD_some, hd1]
    unfold rechunkSpatial at hcs
    rw [List.getElem?_map, hd, Option.map_some, Option.some.injEq] at hcs
    rw [e] at hcs
    generalize hsp : (if a.unstructured = true then [a.xdim] else [a.xdim, a.ydim]) = sp at hcs
    constructor
    · split at hcs <;> rw [← hcs]
      simp
    · intro hx hy
      rw [if_neg] at hcs
      · exact hcs.symm
      · rintro ⟨hm, _⟩
        rw [← hsp] at hm
        split at hm
        · exact hx (by simpa using hm)
        · rcases List.mem_cons.mp hm with h1 | h1
          · exact hx h1
          · exact hy (by simpa using h1)

example : ∃ t, (construct gridArgs).1 = .ok t := by
  cases h : (construct gridArgs).1 with
  | ok t => exact ⟨t, rfl⟩
  | error e =>
    have : (match (construct gridArgs).1 with | .ok _ => true | .error _ => false) = true := by decide +kernel
    rw [h] at this; cases this

/-- **C122 fails** for the range of the gap length: a negative even `T_fill` is accepted in every supported configuration. -/
theorem C122_negative_gap_accepted_fails (a : Args) (h : Supported (2 * npPi) a) (k : Nat) :
    ∃ t, (construct { a with tFill := -2 * ((k : Int) + 1) }).1 = .ok t ∧ t.tFill < 0 := by
  obtain ⟨t, ht⟩ := (C30_accepts_iff { a with tFill := -2 * ((k : Int) + 1) }).mpr
    ⟨h.units, h.area, h.chunked, h.regional, h.dims, h.timecoord, h.boolean, h.mask, ⟨-(k + 1), by dsimp only; ring⟩, h.mesh, h.grid⟩
  refine ⟨t, ht, ?_⟩
  have := (C30_constructed_state _ t ht).1
  dsimp only at this
  omega

/-! ### Neighbour tables and areas -/

theorem construct_setup_error {a : Args} {rad : Bool} {lat lon : List ℚ} {d : Arr} {c : AreaCriterion} {ch : List (List Nat)} {e : CErr}
    (hu : unifyCoordinates a = (.ok (rad, lat, lon), d)) (hc : resolveCriterion a.quartile a.absolute = .ok c) (hch : d.chunks = some ch)
    (ht : a.timedim ∈ d.dims) (hv : validateInputs a d c = .ok ()) (hm : a.unstructured = true) (hs : setupUnstructured a d = .error e) :
    (construct a).1 = .error e := by
  unfold construct
  rw [hu]
  dsimp only
  rw [hc]
  simp only [bind, Except.bind]
  rw [hch]
  simp only [requireChunks, require, if_pos ht, hv, setupGrid, hm, if_true, hs]

theorem setup_attribute {a : Args} {d : Arr} {nb : NbArr} (h1 : a.tempDir ≠ some "")
    (h2 : (d.coord a.xcoord).isSome ∧ (d.coord a.ycoord).isSome) (h3 : a.xcoord ∈ a.mask.coords ∧ a.ycoord ∈ a.mask.coords)
    (hn : a.neighbours = some nb) (h4 : nb.rows = 3) (h5 : nb.dims = ["nv", a.xdim]) (h6 : nb.chunks = none) :
    setupUnstructured a d = .error .attribute := by
  unfold setupUnstructured
  simp only [bind, Except.bind, require, if_pos h1, if_pos h2, if_pos h3, hn, if_pos h4, if_pos h5, h6]
  rfl

/-- **C155** fails: take any supported mesh configuration and hold its neighbour table in memory instead of in dask chunks. The constructor
raises `AttributeError`. -/
theorem C155_table_in_memory_fails (a : Args) (h : Supported (2 * npPi) a) (hm : a.unstructured = true) (nb : NbArr)
    (hnb : a.neighbours = some nb) : (construct { a with neighbours := some { nb with chunks := none } }).1 = .error .attribute := by
  obtain ⟨t, ht⟩ := (C30_accepts_iff a).mpr h
  obtain ⟨rad, lat, lon, hu, c, hc, ch, hch, htd, hv, hs, -⟩ := construct_ok.mp (Prod.ext ht rfl : construct a = (.ok t, (construct a).2))
  obtain ⟨s1, s2, s3, nb', hnb', s4, s5, s6, s7⟩ := setup_ok.mp (hs hm)
  rw [hnb] at hnb'
  cases hnb'
  refine construct_setup_error (rad := rad) (lat := lat) (lon := lon) (d := (construct a).2) (c := c) (ch := ch) hu hc hch htd ?_ hm ?_
  · have v := validate_ok.mp hv
    refine validate_ok.mpr ⟨v.1, v.2.1, v.2.2.1, v.2.2.2.1, ?_, v.2.2.2.2.2⟩
    have v5 := v.2.2.2.2.1
    rw [if_pos hm] at v5
    exact (if_pos hm).symm ▸ ⟨v5.1, rfl, v5.2.2⟩
  · exact setup_attribute s1 s2 s3 rfl s4 s5 rfl

example : (match (construct { meshArgs with neighbours := some ⟨["nv", "cell"], 3, 2, 2, none⟩ }).1 with | .error e => e == .attribute | .ok _ => false) = true := by
  decide +kernel

/-- **C155**, the part that holds: a table held in dask chunks is accepted in any supported mesh configuration, whatever the chunks.  Missing:
tables held in memory, for which it is false (`C155_table_in_memory_fails`). -/
theorem C155_table_in_chunks_partial (a : Args) (h : Supported (2 * npPi) a) (hm : a.unstructured = true) (nb : NbArr)
    (hnb : a.neighbours = some nb) (chs : List (List Nat)) :
    ∃ t, (construct { a with neighbours := some { nb with chunks := some chs } }).1 = .ok t := by
  refine (C30_accepts_iff _).mpr ⟨h.units, h.area, h.chunked, h.regional, h.dims, h.timecoord, h.boolean, h.mask, h.tFill, ?_, h.grid⟩
  intro _
  obtain ⟨m1, ⟨nb', m2, m3, m4, m5, m6⟩, m7⟩ := h.mesh hm
  rw [hnb] at m2
  cases m2
  exact ⟨m1, ⟨_, rfl, m3, m4, rfl, m6⟩, m7⟩

/-- **C156**, the part that holds: with a neighbour table of as many columns as there are cells, and the table and the areas in single chunks,
the constructor gives no warning about chunks and `run()` accepts their layout.  Missing: other layouts, for which it is false
(`C156_chunked_table_fails`, `C156_chunked_areas_fails`, `C156_table_of_other_size_fails`). -/
theorem C156_single_chunks_run_partial (a : Args) (t : Tracker) (h : (construct a).1 = .ok t) (hm : a.unstructured = true)
    (steps : Nat) (nb : NbArr) (hnb : a.neighbours = some nb) (hn : nb.cols = a.data.size a.xdim)
    (h1 : ∀ chs, nb.chunks = some chs → ∀ c ∈ chs, c.length ≤ 1) (h2 : ∀ c ∈ a.areaChunks, c.length ≤ 1) :
    rechunkWarnings a = 0 ∧ runLayout t (a.data.size a.xdim) steps = .ok () := by
  obtain ⟨rad, lat, lon, hu, c, hc, ch, hch, htd, hv, hs, rfl⟩ := construct_ok.mp (Prod.ext h rfl : construct a = (.ok t, (construct a).2))
  obtain ⟨_, _, _, nb', hnb', _, _, hsome, _⟩ := setup_ok.mp (hs hm)
  rw [hnb] at hnb'
  cases hnb'
  obtain ⟨chs, hchs⟩ := Option.isSome_iff_exists.mp hsome
  have e : (a.neighbours.bind NbArr.chunks).getD [] = chs := by rw [hnb]; simp [hchs]
  refine ⟨?_, ?_⟩
  · unfold rechunkWarnings
    rw [e, List.length_eq_zero_iff, List.filter_eq_nil_iff]
    intro x hx
    rcases List.mem_append.mp hx with hx | hx
    · simpa using h1 chs hchs x hx
    · simpa using h2 x hx
  · unfold runLayout
    simp only [require_bind, require_ok]
    refine ⟨?_, ?_, .inr h2⟩
    · rw [hnb]; exact hn
    · rw [e]; exact h1 chs hchs

example : (construct meshArgs).1.toOption.isSome = true := by decide +kernel

/-- **C156** fails for the neighbour table: a table with several chunks along a dimension is accepted by the constructor, which warns that it
is "rechunking to single chunk"; the tracker keeps the table as it is, and every `run()` raises `ValueError`. -/
theorem C156_chunked_table_fails (a : Args) (t : Tracker) (h : (construct a).1 = .ok t) (nb : NbArr)
    (hnb : a.neighbours = some nb) (chs : List (List Nat)) (hch : nb.chunks = some chs) (c : List Nat) (hc : c ∈ chs) (hl : 1 < c.length)
    (cells steps : Nat) : 0 < rechunkWarnings a ∧ runLayout t cells steps = .error .value := by
  obtain ⟨rad, lat, lon, hu, c', hc', ch, hch', htd, hv, hs, rfl⟩ := construct_ok.mp (Prod.ext h rfl : construct a = (.ok t, (construct a).2))
  have e : (a.neighbours.bind NbArr.chunks).getD [] = chs := by rw [hnb]; simp [hch]
  refine ⟨?_, ?_⟩
  · unfold rechunkWarnings
    rw [e]
    exact List.length_pos_of_mem (List.mem_filter.mpr ⟨List.mem_append_left _ hc, by simpa using hl⟩)
  · unfold runLayout
    simp only [bind, Except.bind, require]
    have hn : ¬ ∀ c ∈ ((a.neighbours.bind NbArr.chunks).getD []), c.length ≤ 1 := by
      rw [e]
      intro hall
      have := hall c hc
      omega
    split_ifs <;> rfl

/-- **C156** fails for the areas: cell areas with several chunks are accepted with the same warning, kept as they are, and every `run()` on a
record of more than one step raises `ValueError`. -/
theorem C156_chunked_areas_fails (a : Args) (t : Tracker) (h : (construct a).1 = .ok t) (c : List Nat) (hc : c ∈ a.areaChunks)
    (hl : 1 < c.length) (cells steps : Nat) (hs : steps ≠ 1) : 0 < rechunkWarnings a ∧ runLayout t cells steps = .error .value := by
  obtain ⟨rad, lat, lon, hu, c', hc', ch, hch', htd, hv, hs', rfl⟩ := construct_ok.mp (Prod.ext h rfl : construct a = (.ok t, (construct a).2))
  refine ⟨?_, ?_⟩
  · unfold rechunkWarnings
    exact List.length_pos_of_mem (List.mem_filter.mpr ⟨List.mem_append_right _ hc, by simpa using hl⟩)
  · unfold runLayout
    simp only [bind, Except.bind, require]
    have hn : ¬ (steps = 1 ∨ ∀ c ∈ a.areaChunks, c.length ≤ 1) := by
      rintro (h1 | hall)
      · exact hs h1
      · have := hall c hc; omega
    split_ifs <;> rfl

/-- **C156** fails for the size of the table: in every supported mesh configuration the constructor also accepts a table for any other number
of cells that its entries fit in, and every `run()` then raises `ValueError`. -/
theorem C156_table_of_other_size_fails (a : Args) (h : Supported (2 * npPi) a) (hm : a.unstructured = true) (nb : NbArr)
    (hnb : a.neighbours = some nb) (k : Nat) (hk : nb.maxEntry ≤ k) (cells steps : Nat) (hne : k ≠ cells) :
    ∃ t, (construct { a with neighbours := some { nb with cols := k } }).1 = .ok t ∧ runLayout t cells steps = .error .value := by
  have hsup : Supported (2 * npPi) { a with neighbours := some { nb with cols := k } } := by
    refine ⟨h.units, h.area, h.chunked, h.regional, h.dims, h.timecoord, h.boolean, h.mask, h.tFill, ?_, h.grid⟩
    intro _
    obtain ⟨m1, ⟨nb', m2, m3, m4, m5, _⟩, m7⟩ := h.mesh hm
    rw [hnb] at m2
    cases m2
    exact ⟨m1, ⟨_, rfl, m3, m4, m5, hk⟩, m7⟩
  obtain ⟨t, ht⟩ := (C30_accepts_iff _).mpr hsup
  refine ⟨t, ht, ?_⟩
  obtain ⟨rad, lat, lon, hu, c', hc', ch, hch', htd, hv, hs', rfl⟩ := construct_ok.mp (Prod.ext ht rfl : construct _ = (.ok t, (construct _).2))
  unfold runLayout
  simp only [bind, Except.bind, require, Option.map_some, Option.getD_some]
  rw [if_neg hne]

-- non-vacuity: the mesh configuration of the example with a table in two chunks is accepted
example : (match (construct { meshArgs with neighbours := some ⟨["nv", "cell"], 3, 2, 2, some [[3], [1, 1]]⟩ }).1 with
    | .ok t => (t.nbChunks == [[3], [1, 1]]) | .error _ => false) = true := by decide +kernel

/-- **C30**: `regional_tracker` accepts no mesh, and needs one of the two unit names. -/
theorem C30_regional_tracker (a : Args) (units : String) (t : Tracker) (h : (constructRegional a units).1 = .ok t) :
    a.unstructured = false ∧ ((units = "degrees" ∧ t.radians = false) ∨ (units = "radians" ∧ t.radians = true)) := by
  unfold constructRegional at h
  obtain ⟨rad, lat, lon, hu, c, hc, ch, hch, htd, hv, hs, rfl⟩ := construct_ok.mp (Prod.ext h rfl : construct _ = (.ok t, (construct _).2))
  obtain ⟨_, _, u3, _⟩ := unify_ok.mp hu
  obtain ⟨v1, _⟩ := validate_ok.mp hv
  constructor
  · simpa using v1
  · rcases u3 with ⟨h1, h2⟩ | ⟨h1, h2⟩ | ⟨h1, _⟩
    · exact .inl ⟨Option.some.inj h1, h2⟩
    · exact .inr ⟨Option.some.inj h1, h2⟩
    · cases h1

example : (match (constructRegional gridArgs "radians").1 with | .ok t => t.radians | .error _ => false) = true := by decide +kernel

/-- **C147**: units in force, and the values kept for the output: the caller's own longitudes and latitudes. -/
theorem C147_units_and_originals (a : Args) (t : Tracker) (h : (construct a).1 = .ok t) :
    UnitsAre (2 * npPi) a.regional a.units t.lonInit t.radians ∧ a.data.Reads a.xcoord t.lonInit ∧ a.data.Reads a.ycoord t.latInit := by
  obtain ⟨rad, lat, lon, hu, c, hc, ch, hch, htd, hv, hs, rfl⟩ := construct_ok.mp (Prod.ext h rfl : construct a = (.ok t, (construct a).2))
  obtain ⟨u1, u2, u3, _⟩ := unify_ok.mp hu
  exact ⟨u3, u2, u1⟩

/-- **C147**: the constant used to convert between radians and degrees and to recognise radians is π up to one part in 10¹⁵. -/
theorem C147_pi_accurate : |((npPi : ℚ) : ℝ) - Real.pi| < 1 / 10 ^ 15 := by
  have h1 := Real.pi_gt_d20
  have h2 := Real.pi_lt_d20
  unfold npPi
  push_cast
  rw [abs_lt]
  constructor <;> norm_num at h1 h2 ⊢ <;> linarith

/-- The longitudes of a global grid of `n` columns. -/
def fullCircle (lo : ℚ) (n : Nat) : List ℚ := (List.range n).map fun (k : Nat) => lo + k * (360 / n)

theorem span_fullCircle (lo : ℚ) {n : Nat} (hn : 0 < n) : IsSpan (fullCircle lo n) (360 - 360 / n) := by
  have hn' : (0 : ℚ) < n := by exact_mod_cast hn
  refine ⟨lo, ?_, lo + ((n - 1 : Nat) : ℚ) * (360 / n), ?_, ?_, ?_⟩
  · exact List.mem_map.mpr ⟨0, by simpa using hn, by simp⟩
  · exact List.mem_map.mpr ⟨n - 1, by simp; omega, rfl⟩
  · intro x hx
    obtain ⟨k, hk, rfl⟩ := List.mem_map.mp hx
    have hk' : k ≤ n - 1 := by have := List.mem_range.mp hk; omega
    have : (k : ℚ) ≤ ((n - 1 : Nat) : ℚ) := by exact_mod_cast hk'
    have h360 : (0 : ℚ) ≤ 360 / n := by positivity
    constructor
    · have : 0 ≤ (k : ℚ) * (360 / n) := by positivity
      linarith
    · have := mul_le_mul_of_nonneg_right this h360
      linarith
  · rw [Nat.cast_sub hn]; field_simp; push_cast; ring

/-- **C31** for global grids in degrees: the units are recognised exactly when the grid has at least 360 columns. -/
theorem C31_full_circle_recognised_partial (lo : ℚ) (n : Nat) (hn : 0 < n) :
    (resolveUnits false none (fullCircle lo n) = .ok false ↔ 360 ≤ n) ∧
    (n < 360 → resolveUnits false none (fullCircle lo n) = .error .coordinate) := by
  have hs := lonRange_ok.mpr (span_fullCircle lo hn)
  have hn' : (0 : ℚ) < n := by exact_mod_cast hn
  have hpos : (0 : ℚ) < 360 / n := by positivity
  have hiff : |(360 - 360 / (n : ℚ)) - 360| ≤ 1 ↔ 360 ≤ n := by
    rw [show (360 - 360 / (n : ℚ)) - 360 = -(360 / n) by ring, abs_neg, abs_of_pos hpos, div_le_one hn']
    norm_cast
  have hnot : ¬ |(360 - 360 / (n : ℚ)) - 2 * npPi| ≤ 2 / 100 := by
    intro h
    have hb := npPi_bounds
    obtain ⟨h1, h2⟩ := abs_le.mp h
    rcases Nat.lt_or_ge n 2 with h3 | h3
    · have : n = 1 := by omega
      subst this
      norm_num at h1
      linarith
    · have : (360 : ℚ) / n ≤ 180 := by
        rw [div_le_iff₀ hn']
        have : (2 : ℚ) ≤ n := by exact_mod_cast h3
        linarith
      linarith
  unfold resolveUnits
  rw [hs]
  simp only [Bool.false_eq_true, if_false]
  by_cases h : 360 ≤ n
  · rw [if_pos (hiff.mpr h)]
    exact ⟨⟨fun _ => h, fun _ => rfl⟩, fun h' => by omega⟩
  · rw [if_neg (fun h' => h (hiff.mp h')), if_neg hnot]
    exact ⟨⟨fun h' => (by cases h'), fun h' => absurd h' h⟩, fun _ => rfl⟩

/-- **C31 fails** for coarse global grids: with fewer than 360 columns (spacing above one degree) a full circle is rejected. -/
theorem C31_coarse_global_grid_fails (lo : ℚ) (n : Nat) (h0 : 0 < n) (h : n < 360) :
    resolveUnits false none (fullCircle lo n) = .error .coordinate := (C31_full_circle_recognised_partial lo n h0).2 h

/-- **C31 fails** on ambiguous ranges: longitudes in degrees spanning about 6.28 degrees are silently taken for radians. -/
theorem C31_narrow_degrees_taken_for_radians_fails (lon : List ℚ) (r : ℚ) (hr : IsSpan lon r) (h1 : 627 / 100 ≤ r) (h2 : r ≤ 629 / 100) :
    resolveUnits false none lon = .ok true := by
  rw [resolveUnits_ok]
  refine .inr (.inr ⟨rfl, rfl, r, hr, .inr ⟨?_, rfl⟩⟩)
  have h : (3141 : ℚ) / 1000 < npPi ∧ npPi < 3142 / 1000 := by unfold npPi; constructor <;> norm_num
  rw [abs_le]
  constructor <;> linarith

example : resolveUnits false none [10, 12, 1628 / 100] = .ok true :=
  C31_narrow_degrees_taken_for_radians_fails _ (628 / 100) ⟨10, by simp, 1628 / 100, by simp, by
    intro x hx
    simp at hx
    rcases hx with rfl | rfl | rfl <;> norm_num, by norm_num⟩ (by norm_num) (by norm_num)

/-- Smallest and largest value. -/
def IsBounds (v : List ℚ) (lo hi : ℚ) : Prop := lo ∈ v ∧ hi ∈ v ∧ ∀ x ∈ v, lo ≤ x ∧ x ≤ hi

theorem bounds_foldl {v : List ℚ} {lo hi : ℚ} (h : IsBounds v lo hi) : v.foldl min (v.headD 0) = lo ∧ v.foldl max (v.headD 0) = hi := by
  obtain ⟨hl, hh, hb⟩ := h
  cases v with
  | nil => simp at hl
  | cons x xs =>
    simp only [List.headD_cons]
    obtain ⟨a1, a2⟩ := foldl_min_spec (x :: xs) x
    obtain ⟨b1, b2⟩ := foldl_max_spec (x :: xs) x
    have a1' : (x :: xs).foldl min x ∈ x :: xs := by simpa using a1
    have b1' : (x :: xs).foldl max x ∈ x :: xs := by simpa using b1
    exact ⟨le_antisymm (a2 _ (List.mem_cons_of_mem _ hl)) (hb _ a1').1, le_antisymm (hb _ b1').2 (b2 _ (List.mem_cons_of_mem _ hh))⟩

/-- **C31** for centroid longitudes in degrees: data on `[0, 360)` gets centroids on `[0, 360)`, the same place on the globe; data on
`[-180, 180]` gets them on `[-180, 180]`, unchanged; the latitude is unchanged. -/
theorem C31_centroid_range_partial (lonInit : List ℚ) (lo hi : ℚ) (hb : IsBounds lonInit lo hi) (c : ℚ × ℚ) (hc : -180 ≤ c.2 ∧ c.2 ≤ 180) :
    (remapCentroid false lonInit c).1 = c.1 ∧
    ((0 ≤ lo ∧ 180 < hi) → 0 ≤ (remapCentroid false lonInit c).2 ∧ (remapCentroid false lonInit c).2 < 360 ∧
      ((remapCentroid false lonInit c).2 = c.2 ∨ (remapCentroid false lonInit c).2 = c.2 + 360)) ∧
    (hi ≤ 180 → (remapCentroid false lonInit c).2 = c.2) := by
  obtain ⟨e1, e2⟩ := bounds_foldl hb
  unfold remapCentroid
  dsimp only
  rw [e1, e2]
  simp only [Bool.false_eq_true, if_false]
  refine ⟨trivial, ?_, ?_⟩
  · rintro ⟨h1, h2⟩
    rw [if_pos ⟨h1, h2⟩]
    split
    · rename_i h; exact ⟨by linarith [hc.1], by linarith, .inr rfl⟩
    · rename_i h; exact ⟨not_lt.mp h, by linarith [hc.2], .inl rfl⟩
  · intro h
    rw [if_neg]
    rintro ⟨_, h'⟩
    linarith

/-- The same in radians. -/
theorem C31_centroid_range_radians_partial (lonInit : List ℚ) (lo hi : ℚ) (hb : IsBounds lonInit lo hi) (c : ℚ × ℚ) (hc : -180 ≤ c.2 ∧ c.2 ≤ 180) :
    (remapCentroid true lonInit c).1 = c.1 * npPi / 180 ∧
    ((0 ≤ lo ∧ npPi < hi) → 0 ≤ (remapCentroid true lonInit c).2 ∧ (remapCentroid true lonInit c).2 < 2 * npPi ∧
      ((remapCentroid true lonInit c).2 = c.2 * npPi / 180 ∨ (remapCentroid true lonInit c).2 = (c.2 + 360) * npPi / 180)) ∧
    (hi ≤ npPi → (remapCentroid true lonInit c).2 = c.2 * npPi / 180) := by
  obtain ⟨e1, e2⟩ := bounds_foldl hb
  have hp : 0 < npPi := by have := npPi_bounds.1; linarith
  unfold remapCentroid
  dsimp only
  rw [e1, e2]
  simp only [if_true]
  refine ⟨trivial, ?_, ?_⟩
  · rintro ⟨h1, h2⟩
    rw [if_pos ⟨h1, h2⟩]
    have k1 : -npPi ≤ c.2 * npPi / 180 := by
      rw [le_div_iff₀ (by norm_num)]; nlinarith [hc.1]
    have k2 : c.2 * npPi / 180 ≤ npPi := by
      rw [div_le_iff₀ (by norm_num)]; nlinarith [hc.2]
    split
    · rename_i h; exact ⟨by linarith, by linarith, .inr (by ring)⟩
    · rename_i h; exact ⟨not_lt.mp h, by linarith, .inl rfl⟩
  · intro h
    rw [if_neg]
    rintro ⟨_, h'⟩
    linarith

example : IsBounds [1 / 2, 100, 719 / 2] (1 / 2) (719 / 2) := by
  refine ⟨by simp, by simp, ?_⟩
  intro x hx
  simp at hx
  rcases hx with rfl | rfl | rfl <;> norm_num
example : remapCentroid false [1 / 2, 100, 719 / 2] (10, -20) = (10, 340) := by unfold remapCentroid; norm_num

/-- **C31 fails** for grids that straddle zero, such as -0.5° to 359°: a centroid at a western longitude lies outside the range of the
input's longitudes. -/
theorem C31_straddling_grid_fails (lonInit : List ℚ) (lo hi : ℚ) (hb : IsBounds lonInit lo hi) (hlo : lo < 0) (c : ℚ × ℚ) (hc : c.2 < lo) :
    (remapCentroid false lonInit c).2 = c.2 ∧ (remapCentroid false lonInit c).2 < lo := by
  obtain ⟨e1, e2⟩ := bounds_foldl hb
  unfold remapCentroid
  dsimp only
  rw [e1, e2]
  simp only [Bool.false_eq_true, if_false]
  rw [if_neg]
  · exact ⟨rfl, hc⟩
  · rintro ⟨h, _⟩; linarith

example : IsBounds [-1 / 2, 100, 719 / 2 - 1] (-1 / 2) (717 / 2) ∧ ((0, -20) : ℚ × ℚ).2 < -1 / 2 := by
  refine ⟨⟨by simp, by norm_num, ?_⟩, by norm_num⟩
  intro x hx
  simp at hx
  rcases hx with rfl | rfl | rfl <;> norm_num

/-- **C55**, the part that holds: data in degrees is left as it was. -/
theorem C55_degrees_untouched_partial (a : Args) (lon : List ℚ) (hl : a.data.Reads a.xcoord lon)
    (h : ¬ UnitsAre (2 * npPi) a.regional a.units lon true) : (construct a).2 = a.data := by
  have key : (unifyCoordinates a).2 = a.data := by
    have hr : resolveUnits a.regional a.units lon ≠ .ok true := fun h' => h (resolveUnits_ok.mp h')
    unfold unifyCoordinates
    cases readCoord a.data a.ycoord with
    | error e => rfl
    | ok la =>
      rw [readCoord_ok.mpr hl]
      dsimp only
      cases h3 : resolveUnits a.regional a.units lon with
      | error e => rfl
      | ok r => cases r with
        | false => rfl
        | true => exact absurd h3 hr
  unfold construct
  revert key
  cases unifyCoordinates a with
  | mk r d => cases r <;> exact id

example : (construct gridArgs).2 = gridArgs.data :=
  C55_degrees_untouched_partial gridArgs ((List.range 360).map fun (i : Nat) => (i : ℚ)) (.inl (by decide +kernel)) (by
    rw [← resolveUnits_ok]
    intro h
    have : (match resolveUnits gridArgs.regional gridArgs.units ((List.range 360).map fun (i : Nat) => (i : ℚ)) with
      | .ok true => false | _ => true) = true := by decide +kernel
    rw [h] at this
    cases this)

/-- **C55 fails** in radians: whatever else happens, the caller's longitudes and latitudes are overwritten by their values in degrees. -/
theorem C55_radians_overwritten_fails (a : Args) (lon lat : List ℚ) (hxy : a.ycoord ≠ a.xcoord)
    (hl : a.data.coord a.xcoord = some lon) (ht : a.data.coord a.ycoord = some lat)
    (h : UnitsAre (2 * npPi) a.regional a.units lon true) :
    (construct a).2.coord a.xcoord = some (lon.map fun x => x * 180 / npPi) ∧
    (construct a).2.coord a.ycoord = some (lat.map fun x => x * 180 / npPi) := by
  have hu := unify_ok.mpr ⟨.inl ht, .inl hl, h, .inr ⟨rfl, lat, .inl (by
    unfold setCoord; dsimp only; rw [Function.update_of_ne hxy]; exact ht), rfl⟩⟩
  unfold construct
  rw [hu]
  dsimp only [setCoord]
  rw [Function.update_of_ne (Ne.symm hxy)]
  simp [toDegrees]

/-- Construct `k` trackers one after the other from the same `DataArray` object: the array afterwards. -/
def constructTimes (a : Args) : Nat → Arr
  | 0 => a.data
  | k + 1 => (construct { a with data := constructTimes a k }).2

/-- **C55 fails** for histories: after `k` trackers built with `coordinate_units='radians'` from one array, its longitudes are the
originals multiplied `k` times by 180/π. -/
theorem C55_repeated_construction_fails (a : Args) (lon lat : List ℚ) (hxy : a.ycoord ≠ a.xcoord)
    (hl : a.data.coord a.xcoord = some lon) (ht : a.data.coord a.ycoord = some lat) (hu : a.units = some "radians") (k : Nat) :
    (constructTimes a k).coord a.xcoord = some (lon.map fun x => x * (180 / npPi) ^ k) ∧
    (constructTimes a k).coord a.ycoord = some (lat.map fun x => x * (180 / npPi) ^ k) := by
  induction k with
  | zero => simp [constructTimes, hl, ht]
  | succ k ih =>
    have := C55_radians_overwritten_fails { a with data := constructTimes a k } _ _ hxy ih.1 ih.2 (.inr (.inl ⟨hu, rfl⟩))
    unfold constructTimes
    rw [show a.xcoord = ({ a with data := constructTimes a k } : Args).xcoord from rfl,
      show a.ycoord = ({ a with data := constructTimes a k } : Args).ycoord from rfl, this.1, this.2]
    simp only [List.map_map, Option.some.injEq]
    constructor <;> refine List.map_congr_left fun x _ => ?_ <;> simp only [Function.comp] <;> rw [pow_succ] <;> ring

-- the second tracker from one array in radians works on longitudes 57 times too large and reports them as the input's
example : (match (construct { meshArgs with data := constructTimes meshArgs 1 }).1 with
    | .ok t => decide (t.lonInit = [0, 180 / npPi]) | .error _ => false) = true := by decide +kernel

end MarEx.Props
