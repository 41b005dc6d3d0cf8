import Verif.Spec.EventVars
/-!
# C178: the events have the documented variables
-/
namespace MarEx.Props
open MarEx.Spec

/-- **C178** for meshes of any length, with merging or without, and, with merging, gridded records of at least two steps: the events have exactly the documented variables, each once, with the documented
dimensions. Missing: gridded records of one step. -/
theorem C178_documented_variables_partial (d : DimNames) (unstructured merging : Bool) (steps : Nat)
    (h : unstructured = true ∨ merging = true ∧ steps ≠ 1) :
    (eventVars d unstructured merging steps).Perm (documentedVars d.time (if unstructured then [d.x] else [d.y, d.x])) := by
  have hv : objectVarNames unstructured steps = ["area", "centroid"] := by
    cases unstructured with
    | true => simp only [objectVarNames, if_true]; decide
    | false =>
      have h1 : steps ≠ 1 := by rcases h with h | h; cases h; exact h.2
      simp only [objectVarNames, regionNdim, if_neg h1]
      decide
  have he : extendedVars d unstructured steps =
      [⟨"global_ID", [d.time, "ID"]⟩, ⟨"area", [d.time, "ID"]⟩, ⟨"centroid", ["component", d.time, "ID"]⟩,
       ⟨"presence", [d.time, "ID"]⟩, ⟨"time_start", ["ID"]⟩, ⟨"time_end", ["ID"]⟩] := by
    simp [extendedVars, hv, setVar]
  unfold eventVars documentedVars
  rw [he]
  cases unstructured with
  | true => simp
  | false =>
    have hm : merging = true := by rcases h with h | h; cases h; exact h.1
    simp [hm]

example : (eventVars ⟨"time", "lat", "lon"⟩ false true 365).Perm (documentedVars "time" ["lat", "lon"]) :=
  C178_documented_variables_partial ⟨"time", "lat", "lon"⟩ false true 365 (Or.inr (by decide))
example : (eventVars ⟨"time", "-", "ncells"⟩ true false 365).Perm (documentedVars "time" ["ncells"]) :=
  C178_documented_variables_partial ⟨"time", "-", "ncells"⟩ true false 365 (Or.inl rfl)

/-- **C178** without merging on a grid: the events have one variable, the ID field. -/
theorem C178_without_merging (d : DimNames) (steps : Nat) : eventVars d false false steps = [⟨"ID_field", [d.time, d.y, d.x]⟩] := rfl

/-- **C178** fails for every gridded record of one step tracked with merging: beside the documented variables the events have a ninth, `centroid-2`. -/
theorem C178_one_step_fails (d : DimNames) :
    (eventVars d false true 1).Perm (⟨"centroid-2", [d.time, "ID"]⟩ :: documentedVars d.time [d.y, d.x]) := by
  have hv : objectVarNames false 1 = ["area", "centroid-2", "centroid"] := by decide
  have he : extendedVars d false 1 =
      [⟨"global_ID", [d.time, "ID"]⟩, ⟨"area", [d.time, "ID"]⟩, ⟨"centroid-2", [d.time, "ID"]⟩, ⟨"centroid", ["component", d.time, "ID"]⟩,
       ⟨"presence", [d.time, "ID"]⟩, ⟨"time_start", ["ID"]⟩, ⟨"time_end", ["ID"]⟩] := by
    simp [extendedVars, hv, setVar]
  unfold eventVars documentedVars
  rw [he]
  simp only [Bool.true_or, if_true, List.cons_append, List.nil_append]
  refine List.Perm.trans ?_ (List.Perm.swap _ _ _)
  refine List.Perm.cons _ ?_
  refine List.Perm.trans (List.Perm.cons _ (List.Perm.swap _ _ _)) ?_
  exact List.Perm.swap _ _ _

/-- **C178** fails for the order of the components: the documentation gives the centroid as (x, y), but the first component of an event in a single cell of a grid is the latitude
of the cell and the second its longitude. -/
theorem C178_component_order_fails (periodic : Bool) (ny nx r c : Nat) (lat lon : Nat → ℚ) (w : ℚ) (hw : 0 < w) (hr : r < ny) (hc : c < nx) :
    eventCentroid periodic ny nx lat lon [(r, w)] [(c, w)] = (lat r, lon c) := by
  have hi : ∀ (m k : Nat) (v : Nat → ℚ), k < m → npInterp m v (k : ℚ) = v k := by
    intro m k v hk
    unfold npInterp
    split
    · rename_i h
      have : k = 0 := by
        have : (k : ℚ) ≤ ((0 : Nat) : ℚ) := by simpa using h
        exact Nat.le_zero.mp (by exact_mod_cast this)
      rw [this]
    · split
      · rename_i h
        have : m ≤ k + 1 := by
          have : (m : ℚ) ≤ ((k + 1 : Nat) : ℚ) := by push_cast; linarith
          exact_mod_cast this
        rw [show m - 1 = k by omega]
      · simp
  have hy : yCentroid [(r, w)] = (r : ℚ) := by
    simp [yCentroid, wsum, wtotal, hw.ne']
  have hx : xCentroid periodic nx [(c, w)] = (c : ℚ) := by
    unfold xCentroid
    split
    · have h1 : wsum [(adjCol nx c, w)] / wtotal [(c, w)] = adjCol nx c := by simp [wsum, wtotal, hw.ne']
      simp only [List.map_cons, List.map_nil, h1]
      have hcq : (c : ℚ) < nx := by exact_mod_cast hc
      unfold adjCol
      split
      · rw [if_pos (by linarith)]; ring
      · rw [if_neg (by have : (0 : ℚ) ≤ c := Nat.cast_nonneg c
                       linarith)]
    · simp [wsum, wtotal, hw.ne']
  simp only [eventCentroid, hy, hx, hi ny r lat hr, hi nx c lon hc]

example : eventCentroid true 720 1440 (fun r => -90 + r / 4) (fun c => c / 4) [(400, 1)] [(40, 1)] = (10, 10) ∧
    eventCentroid true 720 1440 (fun r => -90 + r / 4) (fun c => c / 4) [(200, 1)] [(1000, 1)] = (-40, 250) := by
  constructor
  · rw [C178_component_order_fails _ _ _ _ _ _ _ _ (by norm_num) (by norm_num) (by norm_num)]; norm_num
  · rw [C178_component_order_fails _ _ _ _ _ _ _ _ (by norm_num) (by norm_num) (by norm_num)]; norm_num

end MarEx.Props
