import Verif.Props.Pipeline
import Verif.Props.Overlap
/-! The final links and events stated on the final object field itself: C13, C22 end to end, and C99 (events have no gaps in time). -/
namespace MarEx.Props
open MarEx MarEx.Spec

variable {n : Nat}

theorem mem_zip_tail {fs : List (Frame n)} {p : Frame n × Frame n} :
    p ∈ fs.zip fs.tail ↔ ∃ t, fs[t]? = some p.1 ∧ fs[t + 1]? = some p.2 := by
  rw [List.mem_iff_getElem?]
  refine exists_congr fun t => ?_
  rw [List.getElem?_zip_eq_some, List.getElem?_tail]

/-- With IDs unique in time, the total overlap of `a` and `b` comes from a single pair of steps. -/
theorem total_overlap {w : Fin n → ℚ} {a b : Nat} (ha : 0 < a) (fs : List (Frame n)) (hu : TimeUnique fs) (p : Frame n × Frame n)
    (hp : p ∈ fs.zip fs.tail) (hi : ∃ i, p.1 i = a) :
    ((fs.zip fs.tail).map fun q => ((List.finRange n).map fun i => if q.1 i = a ∧ q.2 i = b then w i else 0).sum).sum =
      commonArea w p.1 a p.2 b := by
  have hzero : ∀ f g : Frame n, (∀ i, f i ≠ a) → ((List.finRange n).map fun i => if f i = a ∧ g i = b then w i else 0).sum = 0 := by
    intro f g h
    refine List.sum_eq_zero ?_
    intro x hx
    obtain ⟨i, _, rfl⟩ := List.mem_map.mp hx
    rw [if_neg fun e => h i e.1]
  induction fs with
  | nil => cases hp
  | cons f l ih =>
    cases l with
    | nil => cases hp
    | cons g l' =>
      obtain ⟨hu1, hu2⟩ := List.pairwise_cons.mp hu
      rw [List.tail_cons, List.zip_cons_cons] at hp ⊢
      rw [List.map_cons, List.sum_cons]
      rcases List.mem_cons.mp hp with rfl | hp
      · obtain ⟨i, hi⟩ := hi
        dsimp only at hi
        have hrest : (((g :: l').zip l').map fun q => ((List.finRange n).map fun i => if q.1 i = a ∧ q.2 i = b then w i else 0).sum).sum = 0 := by
          refine List.sum_eq_zero ?_
          intro x hx
          obtain ⟨q, hq, rfl⟩ := List.mem_map.mp hx
          refine hzero _ _ fun j e => hu1 q.1 (List.of_mem_zip hq).1 i j (by rw [hi]; exact ha) (by rw [hi, e])
        rw [hrest, add_zero]
        rfl
      · have hq := (List.of_mem_zip (show p ∈ (g :: l').zip l' from hp)).1
        obtain ⟨i, hi'⟩ := hi
        rw [hzero f g fun j e => hu1 p.1 hq j i (by rw [e]; exact ha) (by rw [e, hi']), zero_add]
        exact ih hu2 hp

theorem objectArea_pos_cell {w : Fin n → ℚ} (hw : ∀ i, 0 < w i) (f : Frame n) (i : Fin n) : 0 < objectArea w f (f i) := by
  unfold objectArea
  refine lt_of_lt_of_le (hw i) ?_
  refine List.single_le_sum ?_ _ (List.mem_map.mpr ⟨i, List.mem_finRange i, if_pos rfl⟩)
  intro x hx
  obtain ⟨j, _, rfl⟩ := List.mem_map.mp hx
  split
  · exact (hw j).le
  · exact le_rfl

theorem links_iff_follows {w : Fin n → ℚ} (hw : ∀ i, 0 < w i) {thr : ℚ} {fs : List (Frame n)} {props : List Obj} (hu : TimeUnique fs)
    (ht : TableExact w fs props) {a b : Nat} :
    LinkedTo (enforceOverlap thr props (findOverlaps w fs)) a b ↔ Follows w thr fs a b := by
  have hpos : PositiveAreas props := by
    intro k x hk
    obtain ⟨h0, f, hf, i, rfl⟩ := (ht.ids k).mp (hasId_iff_area.mpr ⟨x, hk⟩)
    rw [ht.areas f hf i h0, Option.some.injEq] at hk
    rw [← hk]
    exact objectArea_pos_cell hw f i
  unfold LinkedTo Follows OverlapEnough
  constructor
  · rintro ⟨⟨a', b', v⟩, ho, rfl, rfl⟩
    obtain ⟨h1, x, y, hx, hy, hv⟩ := (C13_link_iff_threshold thr props hpos _ _).mp ho
    obtain ⟨ha, hb, ⟨p, hp, i, hi1, hi2⟩, rfl⟩ := ((C12_overlap_list_exact w fs).1 _ _ _).mp h1
    dsimp only at hx hy hv ⊢
    rw [total_overlap ha fs hu p hp ⟨i, hi1⟩] at hv
    obtain ⟨t, h3, h4⟩ := mem_zip_tail.mp hp
    have e1 := ht.areas p.1 (List.mem_of_getElem? h3) i (by rw [hi1]; exact ha)
    have e2 := ht.areas p.2 (List.mem_of_getElem? h4) i (by rw [hi2]; exact hb)
    rw [hi1, hx, Option.some.injEq] at e1
    rw [hi2, hy, Option.some.injEq] at e2
    exact ⟨t, p.1, p.2, h3, h4, hb, ha, ⟨i, hi1, hi2⟩, by rw [← e1, ← e2]; exact hv⟩
  · rintro ⟨t, f, g, hf, hg, hb, ha, ⟨i, rfl, rfl⟩, hv⟩
    have hp : (f, g) ∈ fs.zip fs.tail := mem_zip_tail.mpr ⟨t, hf, hg⟩
    refine ⟨⟨f i, g i, _⟩, (C13_link_iff_threshold thr props hpos _ _).mpr
      ⟨((C12_overlap_list_exact w fs).1 _ _ _).mpr ⟨ha, hb, ⟨(f, g), hp, i, rfl, rfl⟩, rfl⟩,
        _, _, ht.areas f (List.mem_of_getElem? hf) i ha, ht.areas g (List.mem_of_getElem? hg) i hb, ?_⟩, rfl, rfl⟩
    dsimp only
    rw [total_overlap ha fs hu (f, g) hp ⟨i, rfl⟩]
    exact hv

/-- **C13**, end to end: after tracking a structured record, two objects are linked iff they overlap enough, in the final object field,
in two consecutive steps: the shared cells are at least `overlap_threshold` times the smaller of the two final objects. -/
theorem C13_final_links (wrap nn : Bool) (ny nx : Nat) (thr : ℚ) (cen : Frame n → Nat → ℚ × ℚ) (chunks : List (List (Frame n)))
    (hu : TimeUnique chunks.flatten) (cc : Labeller) :
    let r := (trackGrid cc (gridCfg wrap nn ny nx thr cen) chunks).objects
    ∀ a b, LinkedTo r.links a b ↔ Follows (fun _ => 1) thr r.field a b := by
  intro r a b
  have ht := tableExact_calcProps (gridCfg wrap nn ny nx thr cen) chunks.flatten hu
  exact links_iff_follows (fun _ => one_pos) (C20_new_ids_are_fresh wrap nn ny nx thr cen chunks _ hu ht).2.2
    (C57_table_exact_after_split_merge wrap nn ny nx thr cen chunks _ hu ht)

/-- **C22**, end to end on structured grids: two labelled cells carry the same event ID iff their final objects are joined by a chain of
objects each of which overlaps the next enough in consecutive steps of the final object field. -/
theorem C22_tracked_events (cc : Labeller) (hcc : CorrectLabeller cc) (wrap nn : Bool) (ny nx : Nat) (thr : ℚ)
    (cen : Frame n → Nat → ℚ × ℚ) (chunks : List (List (Frame n))) (hu : TimeUnique chunks.flatten) :
    let e := trackGrid cc (gridCfg wrap nn ny nx thr cen) chunks
    TimeUnique e.objects.field ∧ e.idField.length = e.objects.field.length ∧
    (∀ (t u : Nat) (f g f' g' : Frame n), e.objects.field[t]? = some f → e.objects.field[u]? = some g →
      e.idField[t]? = some f' → e.idField[u]? = some g' → ∀ i j, 0 < f i → 0 < g j →
      (f' i = g' j ↔ Linked (Follows (fun _ => 1) thr e.objects.field) (f i) (g j))) ∧
    ∀ (t : Nat) (f f' : Frame n), e.objects.field[t]? = some f → e.idField[t]? = some f' → ∀ i, 0 < f' i ↔ 0 < f i := by
  intro e
  have ht := tableExact_calcProps (gridCfg wrap nn ny nx thr cen) chunks.flatten hu
  obtain ⟨h1, h2, h3, _⟩ := C22_events_are_linked_groups cc hcc (fun _ => 1) thr e.objects.props e.objects.field
  refine ⟨(C20_new_ids_are_fresh wrap nn ny nx thr cen chunks _ hu ht).2.2, h1, ?_, h3⟩
  intro t u f g f' g' hf hg hf' hg' i j hi hj
  have hrel : (fun a b => LinkedTo (enforceOverlap thr e.objects.props (findOverlaps (fun _ => 1) e.objects.field)) a b) =
      Follows (fun _ => 1) thr e.objects.field := by
    funext a b
    exact propext (C13_final_links wrap nn ny nx thr cen chunks hu cc a b)
  have := h2 t u f g f' g' hf hg hf' hg' i j hi hj
  rw [hrel] at this
  exact this

theorem trackingMesh_objects {cc : Labeller} {p : MeshRun n} {pre : List (Fin n → Bool)} {ids : List (Frame n)}
    (h : trackingMesh cc p pre = .ok ids) :
    ∃ r, splitAndMergeParallel p.track p.cen (objectFieldMesh cc p.nbr p.mask pre)
        ((objectFieldMesh cc p.nbr p.mask pre).flatMap (calcProps ⟨p.track.w, p.track.thr, p.cen, fun _ _ _ _ _ _ _ => 0⟩)) = .ok r ∧
      ids = renameField cc r.field (r.links.map fun o => (o.a, o.b)) := by
  unfold trackingMesh at h
  dsimp only at h
  split at h
  · cases h
  split at h
  · cases h
  · rename_i r hr
    exact ⟨r, hr, by cases h; rfl⟩

/-- **C111**, end to end on meshes, whenever the object IDs of the final field are unique in time: two labelled cells carry the same event
ID iff their final objects are joined by a chain of objects overlapping enough in consecutive steps.  Missing: that the IDs are always
unique in time, which is false (`C28_ids_collide_fails`). -/
theorem C111_mesh_tracked_events_partial (cc : Labeller) (hcc : CorrectLabeller cc) (c : MeshCfg n) (hw : ∀ i, 0 < c.w i)
    (cen : Frame n → Nat → ℚ × ℚ) (fs : List (Frame n)) (props : List Obj) (r : SMResult n)
    (h : splitAndMergeParallel c cen fs props = .ok r) (hu : TimeUnique r.field) :
    let out := renameField cc r.field (r.links.map fun o => (o.a, o.b))
    out.length = r.field.length ∧
    (∀ (t u : Nat) (f g f' g' : Frame n), r.field[t]? = some f → r.field[u]? = some g →
      out[t]? = some f' → out[u]? = some g' → ∀ i j, 0 < f i → 0 < g j →
      (f' i = g' j ↔ Linked (Follows c.w c.thr r.field) (f i) (g j))) ∧
    ∀ (t : Nat) (f f' : Frame n), r.field[t]? = some f → out[t]? = some f' → ∀ i, 0 < f' i ↔ 0 < f i := by
  intro out
  unfold splitAndMergeParallel at h
  split at h
  · cases h
  rename_i s hs
  simp only [Except.ok.injEq] at h
  subst h
  dsimp only at hu out ⊢
  obtain ⟨h1, h2, h3, _⟩ := C22_events_are_linked_groups cc hcc c.w c.thr
    (s.fs.flatMap (calcProps ⟨c.w, c.thr, cen, fun _ _ _ _ _ _ _ => 0⟩)) s.fs
  refine ⟨h1, ?_, h3⟩
  intro t u f g f' g' hf hg hf' hg' i j hi hj
  have hrel : (fun a b => LinkedTo (enforceOverlap c.thr (s.fs.flatMap (calcProps ⟨c.w, c.thr, cen, fun _ _ _ _ _ _ _ => 0⟩))
      (findOverlaps c.w s.fs)) a b) = Follows c.w c.thr s.fs := by
    funext a b
    exact propext (links_iff_follows hw hu (tableExact_calcProps ⟨c.w, c.thr, cen, fun _ _ _ _ _ _ _ => 0⟩ s.fs hu))
  have := h2 t u f g f' g' hf hg hf' hg' i j hi hj
  rw [hrel] at this
  exact this

theorem present_unique {fs : List (Frame n)} (hu : TimeUnique fs) {k t u : Nat} (hk : 0 < k) (ht : PresentAt fs k t)
    (hu' : PresentAt fs k u) : t = u := by
  obtain ⟨f, hf, i, hi⟩ := ht
  obtain ⟨g, hg, j, hj⟩ := hu'
  obtain ⟨l1, rfl⟩ := List.getElem?_eq_some_iff.mp hf
  obtain ⟨l2, rfl⟩ := List.getElem?_eq_some_iff.mp hg
  have hP := List.pairwise_iff_getElem.mp hu
  rcases Nat.lt_trichotomy t u with h | h | h
  · exact absurd (hi.trans hj.symm) (hP t u l1 l2 h i j (by rw [hi]; exact hk))
  · exact h
  · exact absurd (hj.trans hi.symm) (hP u t l2 l1 h j i (by rw [hj]; exact hk))

/-- Along a chain of overlapping objects every step between the ends is visited. -/
theorem chain_visits {w : Fin n → ℚ} {thr : ℚ} {fs : List (Frame n)} (hu : TimeUnique fs) {a b : Nat}
    (h : Linked (Follows w thr fs) a b) : 0 < a → ∀ t u, PresentAt fs a t → PresentAt fs b u →
    0 < b ∧ ∀ v, (t ≤ v ∧ v ≤ u ∨ u ≤ v ∧ v ≤ t) → ∃ c, 0 < c ∧ PresentAt fs c v ∧ Linked (Follows w thr fs) a c := by
  induction h with
  | refl =>
    intro ha t u h1 h2
    refine ⟨ha, fun v hv => ⟨_, ha, ?_, .refl _⟩⟩
    have := present_unique hu ha h1 h2
    have : v = t := by omega
    rw [this]; exact h1
  | fwd hab hbc ih =>
    rename_i b c
    intro ha t u h1 h2
    obtain ⟨s, f, g, hf, hg, hc, hb, ⟨i, e1, e2⟩, _⟩ := id hbc
    obtain ⟨_, hall⟩ := ih ha t s h1 ⟨f, hf, i, e1⟩
    have hus : u = s + 1 := present_unique hu hc h2 ⟨g, hg, i, e2⟩
    refine ⟨hc, fun v hv => ?_⟩
    by_cases hvs : v = u
    · rw [hvs]; exact ⟨c, hc, h2, .fwd hab hbc⟩
    · exact hall v (by omega)
  | bwd hab hcb ih =>
    rename_i b c
    intro ha t u h1 h2
    obtain ⟨s, f, g, hf, hg, hb, hc, ⟨i, e1, e2⟩, _⟩ := id hcb
    obtain ⟨_, hall⟩ := ih ha t (s + 1) h1 ⟨g, hg, i, e2⟩
    have hus : u = s := present_unique hu hc h2 ⟨f, hf, i, e1⟩
    refine ⟨hc, fun v hv => ?_⟩
    by_cases hvs : v = u
    · rw [hvs]; exact ⟨c, hc, h2, .bwd hab hcb⟩
    · exact hall v (by omega)

theorem noGaps_of_chains {w : Fin n → ℚ} {thr : ℚ} {fs out : List (Frame n)} (hu : TimeUnique fs) (hlen : out.length = fs.length)
    (hev : ∀ (t u : Nat) (f g f' g' : Frame n), fs[t]? = some f → fs[u]? = some g → out[t]? = some f' → out[u]? = some g' →
      ∀ i j, 0 < f i → 0 < g j → (f' i = g' j ↔ Linked (Follows w thr fs) (f i) (g j)))
    (hsup : ∀ (t : Nat) (f f' : Frame n), fs[t]? = some f → out[t]? = some f' → ∀ i, 0 < f' i ↔ 0 < f i) : NoGaps out := by
  have hpair : ∀ (t : Nat) (g : Frame n), out[t]? = some g → ∃ f, fs[t]? = some f := by
    intro t g hg
    have := (List.getElem?_eq_some_iff.mp hg).1
    exact ⟨fs[t]'(by omega), List.getElem?_eq_getElem _⟩
  rintro k hk t v u htv hvu ⟨f', hf', i, hi⟩ ⟨g', hg', j, hj⟩
  obtain ⟨f, hf⟩ := hpair t f' hf'
  obtain ⟨g, hg⟩ := hpair u g' hg'
  have h1 := (hsup t f f' hf hf' i).mp (by rw [hi]; exact hk)
  have h2 := (hsup u g g' hg hg' j).mp (by rw [hj]; exact hk)
  have hl := (hev t u f g f' g' hf hg hf' hg' i j h1 h2).mp (by rw [hi, hj])
  obtain ⟨_, hall⟩ := chain_visits hu hl h1 t u ⟨f, hf, i, rfl⟩ ⟨g, hg, j, rfl⟩
  obtain ⟨c, hc, ⟨x, hx, y, rfl⟩, hlc⟩ := hall v (.inl ⟨htv, hvu⟩)
  have hlt := (List.getElem?_eq_some_iff.mp hx).1
  refine ⟨out[v]'(by omega), List.getElem?_eq_getElem _, y, ?_⟩
  have := (hev t v f x f' _ hf hx hf' (List.getElem?_eq_getElem (by omega)) i y h1 hc).mpr hlc
  rw [← this, hi]

/-- **C99**, structured grids, with or without merging: in the tracked ID field an event present at two steps is present at every step
between them. -/
theorem C99_grid_events_without_gaps {ny nx : Nat} (cc : Labeller) (hcc : CorrectLabeller cc) (hnx : 0 < nx) (p : GridRun ny nx)
    (wrap nn : Bool) (thr : ℚ) (cen : Frame (ny * nx) → Nat → ℚ × ℚ) (htrack : p.track = gridCfg wrap nn ny nx thr cen)
    (chunks : List Nat) (pre : List (Fin (ny * nx) → Bool)) : NoGaps (trackingGrid cc p chunks pre) := by
  cases hm : p.allowMerging with
  | true =>
    have hr : trackingGrid cc p chunks pre =
        (trackGrid cc (gridCfg wrap nn ny nx thr cen) (chunksOf chunks (identifyObjectsGrid cc false p.regional nx pre))).idField := by
      unfold trackingGrid; rw [hm, ← htrack]; rfl
    rw [hr]
    obtain ⟨h1, h2, h3, h4⟩ := C22_tracked_events cc hcc wrap nn ny nx thr cen
      (chunksOf chunks (identifyObjectsGrid cc false p.regional nx pre))
      (by rw [flatten_chunksOf]; exact (C63_grid_ids_unique cc hcc p.regional nx hnx pre).1)
    exact noGaps_of_chains h1 h2 h3 h4
  | false =>
    obtain ⟨hev, _⟩ := C64_no_merging_events cc hcc hnx p hm chunks pre
    have hlen : (trackingGrid cc p chunks pre).length = pre.length := by
      unfold trackingGrid; rw [hm, if_neg (by simp)]; unfold identifyObjectsGrid; rw [List.length_map, List.length_range]
    have hext : ∀ {t i}, IsExtreme pre t i → t < pre.length := by
      rintro t i ⟨d, hd, _⟩; exact (List.getElem?_eq_some_iff.mp hd).1
    have key : ∀ (a b : Nat × Fin (ny * nx)), Linked (JoinedInTime p.regional nx pre) a b → IsExtreme pre a.1 a.2 →
        ∀ v, (a.1 ≤ v ∧ v ≤ b.1 ∨ b.1 ≤ v ∧ v ≤ a.1) → ∃ c, IsExtreme pre v c ∧ Linked (JoinedInTime p.regional nx pre) a (v, c) := by
      intro a b h
      induction h with
      | refl =>
        intro ha v hv
        have : v = _ := (by omega : v = a.1)
        subst this
        exact ⟨a.2, ha, .refl _⟩
      | fwd hab hbc ih =>
        rename_i b c
        intro ha v hv
        have h1 := hbc.1
        by_cases hvc : v = c.1
        · subst hvc; exact ⟨c.2, hbc.2.2.2, .fwd hab hbc⟩
        · exact ih ha v (by omega)
      | bwd hab hcb ih =>
        rename_i b c
        intro ha v hv
        have h1 := hcb.1
        by_cases hvc : v = c.1
        · subst hvc; exact ⟨c.2, hcb.2.2.1, .bwd hab hcb⟩
        · exact ih ha v (by omega)
    rintro k hk t v u htv hvu ⟨f, hf, i, hi⟩ ⟨g, hg, j, hj⟩
    obtain ⟨h1, _, h3⟩ := (hev t u f g hf hg i j).2.mp ⟨by rw [hi]; exact hk, by rw [hi, hj]⟩
    obtain ⟨c, hc, hl⟩ := key (t, i) (u, j) h3 h1 v (.inl ⟨htv, hvu⟩)
    have hlt : v < (trackingGrid cc p chunks pre).length := by rw [hlen]; exact hext hc
    refine ⟨_, List.getElem?_eq_getElem hlt, c, ?_⟩
    have := ((hev t v f _ hf (List.getElem?_eq_getElem hlt) i c).2.mpr ⟨h1, hc, hl⟩).2
    rw [← this, hi]

/-- **C110**, meshes, whenever the object IDs of the final field are unique in time.  Missing: records whose new object IDs repeat in time
(`C28_ids_collide_fails`), for which one event can be made of objects that never overlap. -/
theorem C110_mesh_events_without_gaps_partial (cc : Labeller) (hcc : CorrectLabeller cc) (c : MeshCfg n) (hw : ∀ i, 0 < c.w i)
    (cen : Frame n → Nat → ℚ × ℚ) (fs : List (Frame n)) (props : List Obj) (r : SMResult n)
    (h : splitAndMergeParallel c cen fs props = .ok r) (hu : TimeUnique r.field) :
    NoGaps (renameField cc r.field (r.links.map fun o => (o.a, o.b))) := by
  obtain ⟨h1, h2, h3⟩ := C111_mesh_tracked_events_partial cc hcc c hw cen fs props r h hu
  exact noGaps_of_chains hu h1 h2 h3

/-- Fifteen cells on a line, six steps: eight objects merge into one at step 1, nothing at step 2, two objects at step 3 merge at step 4. -/
def gapRecord : List (Frame 15) :=
  [fun i => [1, 0, 2, 0, 3, 0, 4, 0, 5, 0, 6, 0, 7, 0, 8].getD i.val 0, fun _ => 9, fun _ => 0,
   fun i => [10, 0, 11].getD i.val 0, fun i => [12, 12, 12].getD i.val 0, fun _ => 0]

/-- Unit areas, `overlap_threshold = 1/4`, chunks of two steps; the partition of the record above by nearest parent (ties to the left). -/
def gapCfg : MeshCfg 15 :=
  { w := fun _ => 1, thr := 1/4, timechunks := 2, maxIter := 40, part := fun _ _ _ ps i => min (i.val / 2) (ps.length - 1) }

/-- The event IDs found for a record on fifteen cells. -/
def gapEvents : Except TErr (List (List Nat)) :=
  match splitAndMergeParallel gapCfg (fun _ _ => (0, 0)) gapRecord
      (gapRecord.flatMap (calcProps ⟨fun _ => 1, 1/4, fun _ _ => (0, 0), fun _ _ _ _ _ _ _ => 0⟩)) with
  | .error e => .error e
  | .ok r => .ok ((renameField quickFind r.field (r.links.map fun o => (o.a, o.b))).map fun f => (List.finRange 15).map f)

/-- **C110 fails** (and C22 with it) on meshes: the merge of eight objects at step 1 takes seven new IDs, two are reserved per step, and the last one is given
out again at step 4. The last event found then lies at cell 14 at steps 0 and 1, is absent at step 2 and lies at cell 2 at steps 3 and 4. -/
theorem C110_mesh_gap_fails : okEq gapEvents
    [[1, 0, 2, 0, 3, 0, 4, 0, 5, 0, 6, 0, 7, 0, 8], [1, 1, 2, 2, 3, 3, 4, 4, 5, 5, 6, 6, 7, 7, 8],
     [0, 0, 0, 0, 0, 0, 0, 0, 0, 0, 0, 0, 0, 0, 0], [9, 0, 8, 0, 0, 0, 0, 0, 0, 0, 0, 0, 0, 0, 0],
     [9, 9, 8, 0, 0, 0, 0, 0, 0, 0, 0, 0, 0, 0, 0], [0, 0, 0, 0, 0, 0, 0, 0, 0, 0, 0, 0, 0, 0, 0]] = true := by decide +kernel

-- non-vacuity of C13, C22 and C99: the example record satisfies the hypothesis; its events: {1, 3, 4} and {2, 6}, the object 5 joins 6
example : TimeUnique [exRecord].flatten := by unfold TimeUnique exRecord; decide +kernel
example : let e := trackGrid quickFind (gridCfg true false 1 6 (1/2) (fun _ k => (0, if k = 2 then 9/2 else 1/2))) [exRecord]
    e.objects.links.map (fun o => (o.a, o.b, o.v)) = [(1, 3, 2), (2, 6, 2), (3, 4, 3), (6, 5, 1)] ∧
    e.idField.map (fun h => (List.finRange 6).map h) = [[1, 1, 0, 0, 2, 2], [1, 1, 1, 2, 2, 2], [1, 1, 1, 0, 0, 2]] := by decide +kernel

end MarEx.Props
