import Verif.Model.Checkpoint
import Verif.Props.Filter
import Mathlib.Algebra.Order.BigOperators.Group.List
import Mathlib.Data.List.Perm.Basic
import Mathlib.Data.List.Sublists
import Mathlib.Tactic.Linarith
import Mathlib.Tactic.NormNum
import Mathlib.Tactic.FieldSimp
import Mathlib.Algebra.BigOperators.Group.Finset.Basic
import Mathlib.Algebra.Order.BigOperators.Group.Finset
/-! Properties C29 (checkpoint files), C61 (repeated runs), C62 (statistics of preprocessing). -/
namespace MarEx.Props
open MarEx MarEx.Spec

variable {C S Raw : Type}

theorem run_append (d : Disk C S) (a b : List (DiskOp C S)) : d.run (a ++ b) = (d.run a).run b := List.foldl_append

/-- Chunks after writing some of them: the written ones hold the field, the others are as before. -/
theorem run_chunks (field : List C) (order : List Nat) (d : Disk C S) (z : ZStore C) (hz : d.zarr = some z) :
    ∃ z', (d.run (order.filterMap fun i => (field[i]?).map fun c => .zarrChunk i c)).zarr = some z' ∧ z'.len = z.len ∧
      (∀ i, z'.chunk i = if i ∈ order ∧ i < field.length then field[i]? else z.chunk i) ∧
      (d.run (order.filterMap fun i => (field[i]?).map fun c => .zarrChunk i c)).npz = d.npz := by
  induction order generalizing d z with
  | nil => exact ⟨z, hz, rfl, by simp, rfl⟩
  | cons j js ih =>
    cases hj : field[j]? with
    | none =>
      obtain ⟨z', h1, h2, h3, h4⟩ := ih d z hz
      have hl := List.getElem?_eq_none_iff.mp hj
      simp only [List.filterMap_cons, hj, Option.map_none]
      refine ⟨z', h1, h2, ?_, h4⟩
      intro i
      rw [h3 i]
      by_cases hi : i = j
      · subst hi
        rw [if_neg (by omega), if_neg (by omega)]
      · simp [hi]
    | some c =>
      have hlt := (List.getElem?_eq_some_iff.mp hj).1
      obtain ⟨z', h1, h2, h3, h4⟩ := ih (d.apply (.zarrChunk j c)) ⟨z.len, fun k => if k = j then some c else z.chunk k⟩
        (by simp [Disk.apply, hz])
      simp only [List.filterMap_cons, hj, Option.map_some]
      refine ⟨z', h1, h2, ?_, h4⟩
      intro i
      rw [h3 i]
      by_cases hi : i = j
      · subst hi
        by_cases hm : i ∈ js
        · rw [if_pos ⟨hm, hlt⟩, if_pos ⟨by simp, hlt⟩]
        · rw [if_neg (by tauto), if_pos ⟨by simp, hlt⟩, hj]; simp
      · simp [hi]

theorem run_fieldOps (field : List C) (order : List Nat) (d : Disk C S) :
    ∃ z', (d.run (fieldOps order field)).zarr = some z' ∧ z'.len = field.length ∧
      (∀ i, z'.chunk i = if i ∈ order ∧ i < field.length then field[i]? else none) ∧ (d.run (fieldOps order field)).npz = d.npz := by
  obtain ⟨z', h1, h2, h3, h4⟩ := run_chunks field order (d.apply (.zarrInit field.length)) ⟨field.length, fun _ => none⟩ rfl
  exact ⟨z', h1, h2, h3, h4⟩

theorem loadData_complete (fill : C) (field : List C) (order : List Nat) (ho : ∀ i < field.length, i ∈ order) (d : Disk C S) :
    loadData fill (d.run (fieldOps order field)) = .ok field := by
  obtain ⟨z', h1, h2, h3, _⟩ := run_fieldOps field order d
  unfold loadData
  rw [h1]
  dsimp only
  congr 1
  apply List.ext_getElem (by simp [h2])
  intro i hi hi'
  simp [h3, ho i hi', hi', List.getElem?_eq_getElem hi']

theorem loadBoth_saveOps (fill : C) (field : List C) (s : S) (order : List Nat) (ho : ∀ i < field.length, i ∈ order) (d : Disk C S) :
    loadBoth fill (d.run (saveOps order field s)) = .ok (field, s) := by
  unfold saveOps
  rw [run_append]
  have h1 : loadData fill ((d.run (fieldOps order field)).run (statsOps s)) = .ok field := by
    rw [← loadData_complete fill field order ho d]; rfl
  unfold loadBoth
  rw [h1]
  rfl

/-- **C29**, complete runs on a mesh: after `run_preprocess(checkpoint="save")` returned (in any directory, with any earlier files,
the chunks being written in any order), the returned pair is the preprocessed field with its statistics, and
`run_preprocess(checkpoint="load")` of any mesh tracker on that directory returns the same pair. -/
theorem C29_load_after_save (fill : C) (field : Raw → Except PErr (List C)) (stats : Raw → Except PErr S) (order : List Nat)
    (m : Mem Raw) (d d' : Disk C S) (m' : Mem Raw) (r : List C × S)
    (hcover : ∀ raw f, m.data = some raw → field raw = .ok f → ∀ i < f.length, i ∈ order)
    (hsave : runPreprocess fill field stats order (some "save") m d = (.ok r, m', d')) :
    (∃ raw, m.data = some raw ∧ field raw = .ok r.1 ∧ stats raw = .ok r.2) ∧
    ∀ (order2 : List Nat) (m2 : Mem Raw), m2.mesh = true →
      runPreprocess fill field stats order2 (some "load") m2 d' = (.ok r, m2, d') := by
  have hload : ∀ (order2 : List Nat) (m2 : Mem Raw), m2.mesh = true → ∀ d'' : Disk C S,
      runPreprocess fill field stats order2 (some "load") m2 d'' = (loadBoth fill d'', m2, d'') := by
    intro o2 m2 hm d''
    unfold runPreprocess effectiveMode
    simp [hm]
  have hs : wantsSave (some "save") = true := by decide
  have he : effectiveMode (some "save") m.inst = some "save" := by simp [effectiveMode]
  unfold runPreprocess at hsave
  rw [he] at hsave
  simp only [hs, show ("save" = "load") = False by simp, Option.some.injEq, if_false, if_true] at hsave
  cases hd : m.data with
  | none => rw [hd] at hsave; simp at hsave
  | some raw =>
    rw [hd] at hsave
    dsimp only at hsave
    cases hf : field raw with
    | error e => rw [hf] at hsave; simp at hsave
    | ok f =>
      rw [hf] at hsave
      dsimp only at hsave
      split at hsave
      · cases hst : stats raw with
        | error e => rw [hst] at hsave; simp at hsave
        | ok s =>
          rw [hst] at hsave
          dsimp only at hsave
          rw [← run_append] at hsave
          have hb := loadBoth_saveOps fill f s order (hcover raw f hd hf) d
          unfold saveOps at hb
          simp only [hb, Prod.mk.injEq, Except.ok.injEq] at hsave
          obtain ⟨rfl, rfl, rfl⟩ := hsave
          refine ⟨⟨raw, rfl, hf, hst⟩, ?_⟩
          intro o2 m2 hm
          rw [hload o2 m2 hm, hb]
      · simp at hsave

/-- What a run of some tracker does to a checkpoint directory: a completed save, a save that died after `k` elementary writes, or a
load / unsaved run (no writes). -/
inductive RunKind (C S : Type)
  | save (order : List Nat) (field : List C) (s : S)
  | crash (order : List Nat) (field : List C) (s : S) (k : Nat)
  | other

/-- Disk after one run. -/
def RunKind.effect (d : Disk C S) : RunKind C S → Disk C S
  | .save o f s => d.run (saveOps o f s)
  | .crash o f s k => d.run ((saveOps o f s).take k)
  | .other => d

/-- **C29**, histories: after any history of saves, crashed saves and loads whose last write was a completed save of `(f, s)`, loading
returns `(f, s)`. -/
theorem C29_last_completed_save_wins (fill : C) (before after : List (RunKind C S)) (order : List Nat) (f : List C) (s : S)
    (ho : ∀ i < f.length, i ∈ order) (hafter : ∀ r ∈ after, r = .other) (d : Disk C S) :
    loadBoth fill ((before ++ .save order f s :: after).foldl RunKind.effect d) = .ok (f, s) := by
  have : ∀ (l : List (RunKind C S)) (d : Disk C S), (∀ r ∈ l, r = .other) → l.foldl RunKind.effect d = d := by
    intro l
    induction l with
    | nil => intros; rfl
    | cons r l ih =>
      intro d h
      rw [List.foldl_cons, h r (by simp)]
      exact ih _ fun r hr => h r (by simp [hr])
  rw [List.foldl_append, List.foldl_cons, this _ _ hafter]
  exact loadBoth_saveOps fill f s order ho _

/-- **C131**, crash safety of the first save: if the directory holds no complete statistics file when a save starts, then after a crash at
any point loading fails, or the save had written everything and loading returns exactly its result.
Missing: directories with an earlier checkpoint (`C131_crash_mixes_checkpoints_fails`). -/
theorem C131_first_save_crash_partial (fill : C) (order : List Nat) (f : List C) (s : S) (ho : ∀ i < f.length, i ∈ order)
    (d : Disk C S) (hd : ∀ x, d.npz ≠ .complete x) (k : Nat) :
    (∃ e, loadBoth fill (d.run ((saveOps order f s).take k)) = .error e) ∨
    loadBoth fill (d.run ((saveOps order f s).take k)) = .ok (f, s) := by
  by_cases hk : (saveOps order f s : List (DiskOp C S)).length ≤ k
  · right
    rw [List.take_of_length_le hk]
    exact loadBoth_saveOps fill f s order ho d
  · left
    have key : ∀ (ops : List (DiskOp C S)) (d : Disk C S), (∀ x, d.npz ≠ .complete x) → (∀ o ∈ ops, ∀ x, o ≠ .npzWrite x) →
        ∀ x, (d.run ops).npz ≠ .complete x := by
      intro ops
      induction ops with
      | nil => intro d h _; exact h
      | cons o ops ih =>
        intro d h ho
        refine ih (d.apply o) ?_ fun o' h' => ho o' (by simp [h'])
        intro x
        cases o with
        | zarrInit l => exact h x
        | zarrChunk i c => exact h x
        | npzOpen => simp [Disk.apply]
        | npzWrite y => exact absurd rfl (ho (.npzWrite y) (by simp) y)
    have hlast : ∀ o ∈ (saveOps order f s : List (DiskOp C S)).take k, ∀ x, o ≠ .npzWrite x := by
      have hsplit : (saveOps order f s : List (DiskOp C S)) = (fieldOps order f ++ [.npzOpen]) ++ [.npzWrite s] := by
        simp [saveOps, statsOps]
      rw [hsplit, List.take_append_of_le_length (by rw [hsplit, List.length_append] at hk; simp at hk ⊢; omega)]
      intro o ho' x
      have := List.mem_of_mem_take ho'
      simp only [fieldOps, List.cons_append, List.mem_cons, List.mem_append, List.mem_filterMap, List.mem_singleton,
        Option.map_eq_some_iff, List.not_mem_nil, or_false] at this
      rcases this with rfl | ⟨_, _, _, _, rfl⟩ | rfl <;> simp
    have hn := key _ d hd hlast
    unfold loadBoth
    cases loadData fill (d.run ((saveOps order f s).take k)) with
    | error e => exact ⟨e, rfl⟩
    | ok g =>
      unfold loadStats
      cases h : (d.run ((saveOps order f s).take k)).npz with
      | absent => exact ⟨_, rfl⟩
      | truncated => exact ⟨_, rfl⟩
      | complete x => exact absurd h (hn x)

/-- **C131**, what a load says after a crash: in any directory, if the save died while the statistics file was being written, loading raises the error of an
unreadable file; in a directory without a statistics file, if it died before that, loading raises the error of a missing file. -/
theorem C131_crash_errors (fill : C) (order : List Nat) (f : List C) (s : S) (d : Disk C S) :
    loadBoth fill (d.run (fieldOps order f ++ [.npzOpen])) = .error .corruptFile ∧
    (d.npz = .absent → ∀ k ≤ (fieldOps order f : List (DiskOp C S)).length, loadBoth fill (d.run ((saveOps order f s).take k)) = .error .missingFile) := by
  constructor
  · obtain ⟨z', h1, _, _, _⟩ := run_fieldOps f order d
    rw [run_append]
    have hz : ((d.run (fieldOps order f)).run [.npzOpen]).zarr = some z' := h1
    unfold loadBoth loadData
    rw [hz]
    rfl
  · intro hn k hk
    unfold saveOps
    rw [List.take_append_of_le_length hk]
    have key : ∀ (ops : List (DiskOp C S)) (d : Disk C S), d.npz = .absent → (∀ o ∈ ops, o ≠ .npzOpen ∧ ∀ x, o ≠ .npzWrite x) → (d.run ops).npz = .absent := by
      intro ops
      induction ops with
      | nil => intro d h _; exact h
      | cons o ops ih =>
        intro d h ho
        refine ih (d.apply o) ?_ fun o ho' => ho o (List.mem_cons_of_mem _ ho')
        cases o with
        | zarrInit => exact h
        | zarrChunk => exact h
        | npzOpen => exact absurd rfl (ho _ List.mem_cons_self).1
        | npzWrite x => exact absurd rfl ((ho _ List.mem_cons_self).2 x)
    have hops : ∀ o ∈ (fieldOps order f : List (DiskOp C S)).take k, o ≠ .npzOpen ∧ ∀ x, o ≠ .npzWrite x := by
      intro o ho
      have := List.mem_of_mem_take ho
      unfold fieldOps at this
      rcases List.mem_cons.mp this with rfl | h
      · exact ⟨by simp, by simp⟩
      · obtain ⟨i, _, hi⟩ := List.mem_filterMap.mp h
        obtain ⟨c, _, rfl⟩ := Option.map_eq_some_iff.mp hi
        exact ⟨by simp, by simp⟩
    have := key _ d hn hops
    unfold loadBoth loadStats
    rw [this]
    cases h : loadData fill (d.run ((fieldOps order f).take k)) with
    | ok _ => rfl
    | error e =>
      unfold loadData at h
      split at h
      · cases h; rfl
      · cases h

/-- **C131 fails** after a crash over an earlier checkpoint, whatever the two checkpoints are: a save of `(g, t)` that dies after the
field was written and before the statistics file was opened leaves a directory from which `load` returns, without any error, the new
field with the old statistics. -/
theorem C131_crash_mixes_checkpoints_fails (fill : C) (o1 o2 : List Nat) (f g : List C) (s t : S) (h2 : ∀ i < g.length, i ∈ o2)
    (d : Disk C S) : ∃ k < (saveOps o2 g t : List (DiskOp C S)).length,
      loadBoth fill ((d.run (saveOps o1 f s)).run ((saveOps o2 g t).take k)) = .ok (g, s) := by
  refine ⟨(fieldOps o2 g : List (DiskOp C S)).length, by simp [saveOps, statsOps], ?_⟩
  unfold saveOps
  rw [List.take_left, run_append]
  have h1 := loadData_complete fill g o2 h2 ((d.run (fieldOps o1 f)).run (statsOps s))
  obtain ⟨_, _, _, _, h4⟩ := run_fieldOps g o2 ((d.run (fieldOps o1 f)).run (statsOps s))
  unfold loadBoth loadStats
  rw [h1, h4]
  rfl

theorem fieldOps_take (g : List C) (o : List Nat) (hin : ∀ i ∈ o, i < g.length) (j : Nat) :
    (fieldOps o g : List (DiskOp C S)).take (j + 1) = fieldOps (o.take j) g ∧ (fieldOps o g : List (DiskOp C S)).length = o.length + 1 := by
  unfold fieldOps
  rw [List.take_succ_cons, List.length_cons]
  induction o generalizing j with
  | nil => simp
  | cons i o ih =>
    have hi : g[i]? = some (g[i]'(hin i (by simp))) := List.getElem?_eq_getElem (hin i (by simp))
    have h := ih (fun i hi => hin i (by simp [hi]))
    refine ⟨?_, ?_⟩
    · cases j with
      | zero => simp
      | succ j =>
        have h1 := (h j).1
        simp only [List.filterMap_cons, hi, Option.map_some, List.take_succ_cons]
        injection h1 with _ h1
        rw [h1]
    · have h2 := (h j).2
      simp only [List.filterMap_cons, hi, Option.map_some, List.length_cons] at h2 ⊢
      omega

/-- **C131 fails** in the middle of writing the field, whatever the two checkpoints are and wherever the crash comes: a save of `(g, t)` over a checkpoint
`(f, s)` that dies after `j` chunks leaves a directory from which `load` returns, without any error, the chunks written so far, the fill value for every
other chunk, and the old statistics. -/
theorem C131_crash_half_field_fails (fill : C) (o1 o2 : List Nat) (f g : List C) (s t : S) (hin : ∀ i ∈ o2, i < g.length) (d : Disk C S) (j : Nat) (hj : j ≤ o2.length) :
    loadBoth fill ((d.run (saveOps o1 f s)).run ((saveOps o2 g t).take (j + 1))) = .ok (g.mapIdx fun i c => if i ∈ o2.take j then c else fill, s) := by
  obtain ⟨h1, h2⟩ := fieldOps_take (S := S) g o2 hin j
  unfold saveOps
  rw [List.take_append_of_le_length (by omega), h1, run_append]
  obtain ⟨z', hz, hl, hc, hn⟩ := run_fieldOps g (o2.take j) ((d.run (fieldOps o1 f)).run (statsOps s))
  have hd : loadData fill (((d.run (fieldOps o1 f)).run (statsOps s)).run (fieldOps (o2.take j) g)) = .ok (g.mapIdx fun i c => if i ∈ o2.take j then c else fill) := by
    unfold loadData
    rw [hz]
    dsimp only
    congr 1
    apply List.ext_getElem (by simp [hl])
    intro i hi hi'
    have hi2 : i < g.length := by simpa using hi'
    by_cases h : i ∈ o2.take j
    · simp [hc, h, hi2]
    · simp [hc, h]
  unfold loadBoth loadStats
  rw [hd, hn]
  rfl

/-- A directory with a complete checkpoint of three chunks `[7, 7, 7]`; a save of `[5, 5, 5]` dies after one chunk. `load` returns `[5, 0, 0]` (0 is the fill
value), a field that no run ever computed. -/
example : loadBoth (S := Nat) 0 (((⟨none, .absent⟩ : Disk Nat Nat).run (saveOps [0, 1, 2] [7, 7, 7] 1)).run ((saveOps [0, 1, 2] [5, 5, 5] 2).take 2))
      = .ok ([5, 0, 0], 1) := C131_crash_half_field_fails 0 [0, 1, 2] [0, 1, 2] [7, 7, 7] [5, 5, 5] 1 2 (by simp) ⟨none, .absent⟩ 1 (by simp)

/-- **C131 fails** without any crash: a saving run whose statistics raise (nothing survives the area filter: see
`C62_nothing_kept_raises`) has already replaced the field of the earlier checkpoint. -/
theorem C131_failed_run_mixes_checkpoints_fails (fill : C) (field : Raw → Except PErr (List C)) (stats : Raw → Except PErr S)
    (o1 o2 : List Nat) (f g : List C) (s : S) (raw : Raw) (hg : field raw = .ok g) (hs : stats raw = .error .zeroDivision)
    (h2 : ∀ i < g.length, i ∈ o2) (d : Disk C S) :
    ∃ d' m', runPreprocess fill field stats o2 (some "save") ⟨some raw, true, none⟩ (d.run (saveOps o1 f s)) = (.error .zeroDivision, m', d') ∧
      loadBoth fill d' = .ok (g, s) := by
  refine ⟨(d.run (saveOps o1 f s)).run (fieldOps o2 g), ⟨none, true, none⟩, ?_, ?_⟩
  · have hw : wantsSave (some "save") = true := by decide
    unfold runPreprocess
    simp [effectiveMode, hw, hg, hs]
  · unfold saveOps
    rw [run_append]
    have h1 := loadData_complete fill g o2 h2 ((d.run (fieldOps o1 f)).run (statsOps s))
    obtain ⟨_, _, _, _, h4⟩ := run_fieldOps g o2 ((d.run (fieldOps o1 f)).run (statsOps s))
    unfold loadBoth loadStats
    rw [h1, h4]
    rfl

/-- Two lists of writes interleaved in some way. -/
inductive Interleaved {α : Type} : List α → List α → List α → Prop
  | nil : Interleaved [] [] []
  | left {a : α} {x y z : List α} : Interleaved x y z → Interleaved (a :: x) y (a :: z)
  | right {a : α} {x y z : List α} : Interleaved x y z → Interleaved x (a :: y) (a :: z)

/-- **C131 fails** for two trackers that share a directory and save at the same time: some interleaving of two complete saves leaves the
field of the second with the statistics of the first, whatever the two results are. -/
theorem C131_concurrent_saves_fails (fill : C) (o1 o2 : List Nat) (f g : List C) (s t : S) (h2 : ∀ i < g.length, i ∈ o2) (d : Disk C S) :
    ∃ ops, Interleaved (saveOps o1 f s) (saveOps o2 g t) ops ∧ loadBoth fill (d.run ops) = .ok (g, s) := by
  have hleft : ∀ (l : List (DiskOp C S)), Interleaved l [] l := by
    intro l; induction l with
    | nil => exact .nil
    | cons a l ih => exact .left ih
  have hr : ∀ (l y z w : List (DiskOp C S)), Interleaved y z w → Interleaved y (l ++ z) (l ++ w) := by
    intro l y z w h; induction l with
    | nil => exact h
    | cons a l ih => exact .right ih
  have hl : ∀ (l y z w : List (DiskOp C S)), Interleaved y z w → Interleaved (l ++ y) z (l ++ w) := by
    intro l y z w h; induction l with
    | nil => exact h
    | cons a l ih => exact .left ih
  refine ⟨fieldOps o1 f ++ (fieldOps o2 g ++ (statsOps t ++ statsOps s)), ?_, ?_⟩
  · unfold saveOps
    refine hl _ _ _ _ (hr _ _ _ _ ?_)
    have := hr (statsOps t) (statsOps s) [] (statsOps s) (hleft _)
    rwa [List.append_nil] at this
  · rw [run_append, run_append, run_append]
    have h1 := loadData_complete fill g o2 h2 (d.run (fieldOps o1 f))
    have h5 : loadData fill ((((d.run (fieldOps o1 f)).run (fieldOps o2 g)).run (statsOps t)).run (statsOps s)) = .ok g := by
      rw [← h1]; rfl
    unfold loadBoth
    rw [h5]
    rfl

/-- **C131 fails** on structured grids: with any `checkpoint` argument that selects saving or loading, `run_preprocess` raises
`AttributeError` (the tracker has no `scratch_dir`), for every input and every directory; nothing is ever written. -/
theorem C131_structured_grid_fails (fill : C) (field : Raw → Except PErr (List C)) (stats : Raw → Except PErr S) (order : List Nat)
    (arg : Option String) (m : Mem Raw) (d : Disk C S) (hgrid : m.mesh = false)
    (hmode : effectiveMode arg m.inst = some "load" ∨ wantsSave (effectiveMode arg m.inst) = true) :
    ∃ e m', runPreprocess fill field stats order arg m d = (.error e, m', d) := by
  unfold runPreprocess
  by_cases hl : effectiveMode arg m.inst = some "load"
  · simp [hl, hgrid]
  · rcases hmode with h | h
    · exact absurd h hl
    · simp only [hl, if_false]
      cases m.data with
      | none => exact ⟨_, _, rfl⟩
      | some raw =>
        dsimp only
        cases field raw with
        | error e => exact ⟨_, _, rfl⟩
        | ok f => simp [h, hgrid]

/-- **C131**: a loading tracker never looks at its own data or parameters: trackers with different inputs, mask or parameters (different
`field`, `stats`, `m`) all return the stored pair. Stated as a failure of "a checkpoint is only used for the input it was made from". -/
theorem C131_any_checkpoint_loads_fails (fill : C) (field1 field2 : Raw → Except PErr (List C)) (stats1 stats2 : Raw → Except PErr S)
    (o1 o2 : List Nat) (m1 m2 : Mem Raw) (h1 : m1.mesh = true) (h2 : m2.mesh = true) (d : Disk C S) :
    (runPreprocess fill field1 stats1 o1 (some "load") m1 d).1 = (runPreprocess fill field2 stats2 o2 (some "load") m2 d).1 := by
  unfold runPreprocess
  simp [effectiveMode, h1, h2]

-- a complete save and load, with chunks written out of order
example : (runPreprocess (Raw := Nat) (0 : Nat) (fun r => .ok [r, r + 1, r + 2]) (fun r => .ok (10 * r)) [2, 0, 1] (some "save") ⟨some 4, true, none⟩
    (⟨none, .absent⟩ : Disk Nat Nat)).1 = .ok ([4, 5, 6], 40) := by rfl

-- a crash after the first chunk in an empty directory: loading fails
example : loadBoth 0 ((⟨none, .absent⟩ : Disk Nat Nat).run ((saveOps [0, 1] [7, 7] 1).take 2)) = .error .missingFile := by rfl

-- a saving run on a structured grid
example : (runPreprocess (Raw := Nat) (0 : Nat) (fun r => .ok [r]) (fun r => .ok r) [0] (some "save") ⟨some 4, false, none⟩
    (⟨none, .absent⟩ : Disk Nat Nat)).1 = .error .attribute := by rfl

/-! ### C61: the mode argument and repeated runs -/

/-- The checkpoint mode in force: the argument of the call if it is given and non-empty, else the constructor's setting. -/
def ModeInForce (arg inst mode : Option String) : Prop :=
  (∃ s, arg = some s ∧ s ≠ "" ∧ mode = some s) ∨ ((arg = none ∨ arg = some "") ∧ mode = inst)

theorem effectiveMode_inForce (arg inst mode : Option String) (h : ModeInForce arg inst mode) : effectiveMode arg inst = mode := by
  rcases h with ⟨s, rfl, hs, rfl⟩ | ⟨rfl | rfl, rfl⟩
  · simp [effectiveMode, hs]
  · rfl
  · simp [effectiveMode]

/-- **C61**: on an unstructured tracker whose preprocessing works, the mode in force decides: exactly the string `load` reads the files and
computes nothing; every other string that contains `save` writes the field and the statistics and returns what it reads back; every other
string, and no string, writes nothing and returns the computed field and statistics. -/
theorem C61_mode_selection (fill : C) (field : Raw → Except PErr (List C)) (stats : Raw → Except PErr S) (order : List Nat)
    (arg mode : Option String) (m : Mem Raw) (d : Disk C S) (raw : Raw) (f : List C) (s : S)
    (hm : ModeInForce arg m.inst mode) (hmesh : m.mesh = true) (hraw : m.data = some raw) (hf : field raw = .ok f) (hs : stats raw = .ok s) :
    (mode = some "load" → runPreprocess fill field stats order arg m d = (loadBoth fill d, m, d)) ∧
    (∀ str, mode = some str → str ≠ "load" → "save".toList <:+: str.toList →
      runPreprocess fill field stats order arg m d =
        (loadBoth fill (d.run (saveOps order f s)), { m with data := none }, d.run (saveOps order f s))) ∧
    ((mode = none ∨ ∃ str, mode = some str ∧ str ≠ "load" ∧ ¬ "save".toList <:+: str.toList) →
      runPreprocess fill field stats order arg m d = (.ok (f, s), { m with data := none }, d)) := by
  have he := effectiveMode_inForce _ _ _ hm
  unfold runPreprocess
  dsimp only
  rw [he]
  refine ⟨?_, ?_, ?_⟩
  · rintro rfl
    rw [if_pos rfl, if_pos hmesh]
  · rintro str rfl hne hin
    rw [if_neg (by simpa using hne), hraw]
    dsimp only
    rw [hf]
    dsimp only
    rw [if_pos (by simpa [wantsSave] using hin), if_pos hmesh, hs]
    simp [saveOps, Disk.run, List.foldl_append]
  · rintro (rfl | ⟨str, rfl, hne, hin⟩)
    · rw [if_neg (by simp), hraw]
      dsimp only
      rw [hf]
      simp [wantsSave, hs]
    · rw [if_neg (by simpa using hne), hraw]
      dsimp only
      rw [hf]
      dsimp only
      rw [if_neg (by simpa [wantsSave] using hin), hs]

-- `save` given at construction is in force for a call without argument; `autosave` also saves, `Save` does not
example : ModeInForce none (some "save") (some "save") := .inr ⟨.inl rfl, rfl⟩
example : "save".toList <:+: "autosave".toList ∧ ¬ "save".toList <:+: "Save".toList := by decide

/-- **C121 fails**: a tracker can be run only once. After any run that did not load (with whatever result), every further run that does
not load raises `AttributeError`, because the input was deleted by the first. -/
theorem C121_second_run_fails (fill : C) (field : Raw → Except PErr (List C)) (stats : Raw → Except PErr S) (o1 o2 : List Nat)
    (a1 a2 : Option String) (m : Mem Raw) (d d2 : Disk C S)
    (h1 : effectiveMode a1 m.inst ≠ some "load") (h2 : effectiveMode a2 m.inst ≠ some "load") :
    (runPreprocess fill field stats o2 a2 (runPreprocess fill field stats o1 a1 m d).2.1 d2).1 = .error .attribute := by
  have hm : (runPreprocess fill field stats o1 a1 m d).2.1.data = none ∧ (runPreprocess fill field stats o1 a1 m d).2.1.inst = m.inst := by
    unfold runPreprocess
    simp only [h1, if_false]
    cases hd : m.data with
    | none => exact ⟨hd, rfl⟩
    | some raw =>
      dsimp only
      cases field raw with
      | error e => exact ⟨rfl, rfl⟩
      | ok f =>
        dsimp only
        split
        · split
          · cases stats raw <;> exact ⟨rfl, rfl⟩
          · exact ⟨rfl, rfl⟩
        · cases stats raw <;> exact ⟨rfl, rfl⟩
  generalize (runPreprocess fill field stats o1 a1 m d).2.1 = m2 at hm
  unfold runPreprocess
  rw [hm.2]
  simp [h2, hm.1]

/-- **C61**: loading can be repeated: it changes neither the tracker nor the files. -/
theorem C61_load_repeatable (fill : C) (field : Raw → Except PErr (List C)) (stats : Raw → Except PErr S) (o : List Nat)
    (arg : Option String) (m : Mem Raw) (d : Disk C S) (h : effectiveMode arg m.inst = some "load") :
    (runPreprocess fill field stats o arg m d).2 = (m, d) := by
  unfold runPreprocess
  simp only [h, if_true]
  split <;> rfl

/-- **C61**: a run without checkpointing writes nothing. -/
theorem C61_no_checkpoint_no_files (fill : C) (field : Raw → Except PErr (List C)) (stats : Raw → Except PErr S) (o : List Nat)
    (arg : Option String) (m : Mem Raw) (d : Disk C S) (h : wantsSave (effectiveMode arg m.inst) = false) :
    (runPreprocess fill field stats o arg m d).2.2 = d := by
  unfold runPreprocess
  simp only [h]
  split
  · split <;> rfl
  · cases m.data with
    | none => rfl
    | some raw =>
      dsimp only
      cases field raw with
      | error e => rfl
      | ok f =>
        simp only [Bool.false_eq_true, if_false]
        cases stats raw <;> rfl

example : wantsSave (some "None") = false ∧ wantsSave (some "autosave") = true ∧ wantsSave none = false := by decide

/-! ### C62: statistics of preprocessing -/

/-- **C62**: when the statistics are reported, the accepted area fraction lies in `[0, 1]` and is the share, in the total area, of the
objects strictly larger than the reported threshold. -/
theorem C62_fraction_in_range (areas : List ℚ) (hpos : ∀ a ∈ areas, 0 ≤ a) (thr raw processed : ℚ) (r : AreaStats)
    (h : areaStats areas thr raw processed = .ok r) :
    0 ≤ r.acceptedFraction ∧ r.acceptedFraction ≤ 1 ∧
    r.acceptedFraction * areas.sum + (areas.filter fun a => decide (a ≤ thr)).sum = areas.sum ∧
    r.preprocessedFraction * processed = raw := by
  have hsplit : ∀ l : List ℚ, (l.filter fun a => decide (thr < a)).sum + (l.filter fun a => decide (a ≤ thr)).sum = l.sum := by
    intro l
    induction l with
    | nil => simp
    | cons a l ih =>
      by_cases ha : thr < a
      · rw [List.filter_cons_of_pos (by simpa using ha), List.filter_cons_of_neg (by simpa using ha)]
        simp only [List.sum_cons]; linarith
      · rw [List.filter_cons_of_neg (by simpa using ha), List.filter_cons_of_pos (by simpa using ha)]
        simp only [List.sum_cons]; linarith
  have hn : ∀ (p : ℚ → Bool), 0 ≤ (areas.filter p).sum := fun p =>
    List.sum_nonneg fun a ha => hpos a (List.mem_filter.mp ha).1
  unfold areaStats at h
  dsimp only at h
  split at h
  · cases h
  · rename_i h0
    split at h
    · cases h
    · rename_i h1
      cases h
      have hs := hsplit areas
      have ha := hn fun a => decide (thr < a)
      have hb := hn fun a => decide (a ≤ thr)
      have hp : 0 < areas.sum := lt_of_le_of_ne (by linarith) (Ne.symm h0)
      refine ⟨div_nonneg ha hp.le, (div_le_one hp).mpr (by linarith), ?_, ?_⟩
      · dsimp only
        rw [div_mul_cancel₀ _ h0]
        exact hs
      · dsimp only
        rw [div_mul_cancel₀ _ h1]

-- three objects, one of them kept
example : areaStats [4, 6, 30] 10 35 30 = .ok ⟨40, 10, 3 / 4, 7 / 6⟩ := by norm_num [areaStats]

/-- **C124 fails** when nothing survives the filter: the statistics raise `ZeroDivisionError`, so the tracker ends with an unrelated
error instead of an empty result. -/
theorem C124_nothing_kept_raises_fails (areas : List ℚ) (thr raw : ℚ) : areaStats areas thr raw 0 = .error .zeroDivision := by
  unfold areaStats
  dsimp only
  split
  · rfl
  · simp

/-- **C124 fails** at the threshold: a record with objects of 4 cells each and `area_filter_absolute = 4`: the grid filter keeps two of the
three objects, but the reported accepted area fraction is 0. -/
theorem C124_fraction_of_kept_fails :
    ∃ (labels : List (Fin 12 → Nat)) (fr : FilterResult 12) (r : AreaStats), UniqueLabels labels ∧ allSizes labels = {4, 4, 4} ∧
      filterGrid (.absolute 4) labels = .ok fr ∧ (labels.zip fr.field).map (fun p => survivors p.1 p.2) = [2] ∧
      areaStats [4, 4, 4] fr.threshold 12 8 = .ok r ∧ r.acceptedFraction = 0 := by
  refine ⟨[fun i => i.val / 4 + 1], _, ⟨12, 4, 0, 3 / 2⟩, ?_, by decide +kernel, rfl, by decide +kernel, ?_, rfl⟩
  · intro t t' f f' h1 h2 i j _ _
    have a := (List.getElem?_eq_some_iff.mp h1).1
    have b := (List.getElem?_eq_some_iff.mp h2).1
    simp at a b; omega
  · show areaStats [4, 4, 4] 4 12 8 = _
    norm_num [areaStats]

/-- **C124 fails** for every record whose largest objects have exactly the threshold area: the grid filter keeps objects at the threshold (C07), but the
reported accepted area fraction is 0. -/
theorem C124_all_at_threshold_fails (areas : List ℚ) (thr raw processed : ℚ) (hle : ∀ a ∈ areas, a ≤ thr) (hs : areas.sum ≠ 0) (hp : processed ≠ 0) :
    ∃ r, areaStats areas thr raw processed = .ok r ∧ r.acceptedFraction = 0 := by
  refine ⟨⟨areas.sum, thr, 0, raw / processed⟩, ?_, rfl⟩
  unfold areaStats
  have : areas.filter (fun a => decide (thr < a)) = [] := by
    rw [List.filter_eq_nil_iff]
    intro a ha
    simpa using hle a ha
  simp [this, hs, hp]

example : ∃ r, areaStats [4, 2, 4] 4 12 8 = .ok r ∧ r.acceptedFraction = 0 :=
  C124_all_at_threshold_fails _ _ _ _ (by simp; norm_num) (by norm_num) (by norm_num)

/-- The cells of the objects selected by `P`, counted object by object. -/
theorem sum_table_filter {n : Nat} (f : Fin n → Nat) (P : Nat → Bool) :
    (((stepTable f).filter fun e => P e.2).map (·.2)).sum =
      (Finset.univ.filter fun i => 0 < f i ∧ P (size f (f i)) = true).card := by
  have e : ((stepTable f).filter fun e => P e.2).map (·.2) = ((idsOf f).filter fun k => P (size f k)).map (size f) := by
    simp only [stepTable, List.filter_map, List.map_map, cellCount_size]
    simp [Function.comp_def, cellCount_size]
  have hnd : ((idsOf f).filter fun k => P (size f k)).Nodup := (show (idsOf f).Nodup from nodup_npUnique _).filter _
  rw [e, ← List.sum_toFinset _ hnd]
  rw [Finset.card_eq_sum_card_fiberwise (f := f) (t := ((idsOf f).filter fun k => P (size f k)).toFinset)]
  · apply Finset.sum_congr rfl
    intro k hk
    simp only [List.mem_toFinset, List.mem_filter, mem_idsOf] at hk
    unfold size
    congr 1
    ext i
    simp only [Finset.mem_filter, Finset.mem_univ, true_and]
    constructor
    · rintro rfl; exact ⟨⟨by omega, hk.2⟩, rfl⟩
    · rintro ⟨_, h⟩; exact h
  · intro i hi
    simp only [Finset.coe_filter, Finset.mem_univ, true_and, Set.mem_setOf_eq] at hi
    simp only [List.coe_toFinset, Set.mem_setOf_eq, List.mem_filter, mem_idsOf]
    exact ⟨⟨hi.1, i, rfl⟩, hi.2⟩

theorem sum_objectTable_filter {n : Nat} (labels : List (Fin n → Nat)) (P : Nat → Bool) :
    (((objectTable labels).filter fun e => P e.2).map (·.2)).sum =
      (labels.map fun f => (Finset.univ.filter fun i => 0 < f i ∧ P (size f (f i)) = true).card).sum := by
  induction labels with
  | nil => rfl
  | cons f fs ih =>
    rw [objectTable_cons, List.filter_append, List.map_append, List.sum_append, ih, sum_table_filter, List.map_cons, List.sum_cons]

/-- **C62**, meshes, where the filter itself is strict and the statistics use the sizes of all objects (track.py 1870): the reported total is
the number of object cells, and the accepted area fraction of it is the number of cells the filter keeps. -/
theorem C62_mesh_fraction (c : AreaCriterion) {n : Nat} (labels : List (Fin n → Nat)) (fr : FilterResult n) (r : AreaStats)
    (sizes : List Nat) (hsz : (sizes : Multiset Nat) = allSizes labels)
    (raw processed : ℚ) (hf : filterMesh c labels = .ok fr)
    (h : areaStats (sizes.map fun (k : Nat) => (k : ℚ)) fr.threshold raw processed = .ok r) :
    r.totalIded = ((labels.map fun f => (Finset.univ.filter fun i => 0 < f i).card).sum : Nat) ∧
    r.acceptedFraction * r.totalIded = ((fr.field.map fun g => (Finset.univ.filter fun i => g i = true).card).sum : Nat) := by
  have hperm : sizes.Perm ((objectTable labels).map (·.2)) := by
    rw [allSizes_eq] at hsz
    exact Multiset.coe_eq_coe.mp hsz
  have hcast : ∀ l : List Nat, (l.map fun (k : Nat) => (k : ℚ)).sum = (l.sum : Nat) := by
    intro l
    induction l with
    | nil => simp
    | cons a l ih => simp [ih]
  have hfield : fr.field = labels.map fun f => fun i => decide (0 < f i ∧ fr.threshold < (size f (f i) : ℚ)) := by
    apply List.ext_getElem?
    intro t
    rw [List.getElem?_map]
    cases hl : labels[t]? with
    | none =>
      rw [Option.map_none, List.getElem?_eq_none_iff, (keptObjects_survivors labels c fr hf).1]
      exact List.getElem?_eq_none_iff.mp hl
    | some f =>
      obtain ⟨g, hg, hgi⟩ := C08_keeps_exactly_larger labels c fr hf t f hl
      rw [hg, Option.map_some]
      congr 1
      funext i
      have := hgi i
      by_cases hi : 0 < f i ∧ fr.threshold < (size f (f i) : ℚ)
      · rw [this.mpr hi, decide_eq_true hi]
      · rw [decide_eq_false hi]
        cases hgi' : g i with
        | false => rfl
        | true => exact absurd (this.mp hgi') hi
  unfold areaStats at h
  dsimp only at h
  split at h
  · cases h
  · rename_i h0
    split at h
    · cases h
    · cases h
      dsimp only
      refine ⟨?_, ?_⟩
      · rw [hcast, hperm.sum_eq]
        have := sum_objectTable_filter labels fun _ => true
        simp only [List.filter_true, and_true] at this
        rw [this]
      · rw [div_mul_cancel₀ _ h0, hfield, List.map_map]
        have := sum_objectTable_filter labels fun k => decide (fr.threshold < (k : ℚ))
        simp only [decide_eq_true_eq] at this
        simp only [Function.comp_def, decide_eq_true_eq]
        rw [← this, List.filter_map, hcast]
        congr 1
        have h2 := (hperm.filter (fun (k : Nat) => decide (fr.threshold < (k : ℚ)))).sum_eq
        rw [List.filter_map] at h2
        exact h2

-- two objects of 7 and 3 cells, threshold 5: 7 of 10 cells are kept
example : ∃ fr r, filterMesh (n := 11) (.absolute 5) [fun i => if i.val < 7 then 1 else if i.val < 10 then 2 else 0] = .ok fr ∧
    allSizes (n := 11) [fun i => if i.val < 7 then 1 else if i.val < 10 then 2 else 0] = {7, 3} ∧
    areaStats [7, 3] fr.threshold 10 7 = .ok r ∧ r.acceptedFraction = 7 / 10 := by
  refine ⟨_, ⟨10, 5, 7 / 10, 10 / 7⟩, rfl, by decide +kernel, ?_, rfl⟩
  show areaStats [7, 3] 5 10 7 = _
  norm_num [areaStats]

end MarEx.Props
