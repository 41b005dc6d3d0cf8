import Verif.Lemmas.CutMerge
/-! The loops over steps and chunks after leaving objects out (`Cut`), and the links between the remaining objects. -/
namespace MarEx

variable {n : Nat}

theorem consolidate_tab {c : TrackCfg n} (hc : Faithful c) {ρ : Nat → Nat} {s s' : SMState} (h : Tab ρ s s') (f2 f1 : Frame n)
    (ha : Apart (side ρ f2) (side ρ f1)) (hlt : ∀ i, f1 i < s.nextId) :
    Tab ρ { s with props := (consolidate c f2 f1 s.props).2 } { s' with props := (consolidate c (cutFrame ρ f2) (cutFrame ρ f1) s'.props).2 } ∧
    (consolidate c (cutFrame ρ f2) (cutFrame ρ f1) s'.props).1 = cutFrame ρ (consolidate c f2 f1 s.props).1 ∧
    side ρ (consolidate c f2 f1 s.props).1 = side ρ f1 ∧ ∀ i, (consolidate c f2 f1 s.props).1 i < s.nextId := by
  obtain ⟨e, k⟩ := consolidate_cut h.cut hc f2 f1 ha s.props hlt h.tlt
  rw [h.props, e]
  exact ⟨⟨h.cut, h.pos, rfl, h.merges, k.tlt, h.mlt, h.msd⟩, rfl, k.side, k.lt⟩

theorem map_side_congr {ρ ρ₁ : Nat → Nat} {N : Nat} (h : ∀ k, k < N → ρ₁ k = ρ k) {l : List (Frame n)} (hl : ∀ f ∈ l, ∀ i, f i < N) :
    l.map (side ρ₁) = l.map (side ρ) := List.map_congr_left fun f hf => side_congr h (hl f hf)

theorem map_cutFrame_congr {ρ ρ₁ : Nat → Nat} {N : Nat} (h : ∀ k, k < N → ρ₁ k = ρ k) {l : List (Frame n)} (hl : ∀ f ∈ l, ∀ i, f i < N) :
    l.map (cutFrame ρ₁) = l.map (cutFrame ρ) := List.map_congr_left fun f hf => cutFrame_congr h (hl f hf)

/-- The result of a loop: renaming, table, frames and sides. -/
structure Looped (ρ : Nat → Nat) (N : Nat) (x : List (Fin n → Option Bool)) (r r' : List (Frame n) × SMState) (ρ₁ : Nat → Nat) : Prop where
  old : ∀ k, k < N → ρ₁ k = ρ k
  le : N ≤ r.2.nextId
  tab : Tab ρ₁ r.2 r'.2
  frames : r'.1 = r.1.map (cutFrame ρ₁)
  sides : r.1.map (side ρ₁) = x
  lt : ∀ f ∈ r.1, ∀ i, f i < r.2.nextId

theorem chunkLoop_cut {c : TrackCfg n} (hc : Faithful c) (rest : List (Frame n)) :
    ∀ (ρ : Nat → Nat) (t : Nat) (last2 last1 : Frame n) (done : List (Frame n)) (first : Bool) (s s' : SMState), Tab ρ s s' →
      (first = true → done = []) →
      (∀ f ∈ last2 :: last1 :: (done ++ rest), ∀ i, f i < s.nextId) →
      List.IsChain Apart (side ρ last2 :: side ρ last1 :: rest.map (side ρ)) →
      ∃ ρ₁, Looped ρ s.nextId ((done.reverse ++ (if first then [] else [last1]) ++ rest).map (side ρ))
        (chunkLoop c t last2 last1 done first rest s)
        (chunkLoop c t (cutFrame ρ last2) (cutFrame ρ last1) (done.map (cutFrame ρ)) first (rest.map (cutFrame ρ)) s') ρ₁ := by
  induction rest with
  | nil =>
    intro ρ t last2 last1 done first s s' h hfd hlt hch
    rw [List.map_nil, chunkLoop, chunkLoop]
    cases first with
    | true =>
      rw [if_pos rfl, if_pos rfl, if_pos rfl, hfd rfl]
      exact ⟨ρ, fun _ _ => rfl, le_refl _, h, rfl, rfl, fun f hf => by cases hf⟩
    | false =>
      simp only [Bool.false_eq_true, if_false, List.isEmpty_map]
      cases done with
      | nil =>
        simp only [List.isEmpty_nil, if_true]
        refine ⟨ρ, fun _ _ => rfl, le_refl _, h, rfl, rfl, fun f hf => ?_⟩
        rw [List.mem_singleton] at hf
        subst hf
        exact hlt _ (by simp)
      | cons d done =>
        rw [if_neg (by simp), if_neg (by simp)]
        obtain ⟨k1, k2, k3, k4⟩ := consolidate_tab hc h last2 last1 ((List.isChain_cons_cons.mp hch).1) (hlt _ (by simp))
        refine ⟨ρ, fun _ _ => rfl, le_refl _, k1, ?_, ?_, ?_⟩
        · simp [k2]
        · simp [k3]
        · intro f hf
          rw [List.mem_reverse] at hf
          rcases List.mem_cons.mp hf with rfl | hf
          · exact k4
          · exact hlt f (by
              rw [List.append_nil]
              exact List.mem_cons_of_mem _ (List.mem_cons_of_mem _ hf))
  | cons cur rest ih =>
    intro ρ t last2 last1 done first s s' h hfd hlt hch
    rw [List.map_cons] at hch
    obtain ⟨ch1, ch2⟩ := List.isChain_cons_cons.mp hch
    obtain ⟨ch3, ch4⟩ := List.isChain_cons_cons.mp ch2
    have hl1 : ∀ i, last1 i < s.nextId := hlt last1 (by simp)
    have hlc : ∀ i, cur i < s.nextId := hlt cur (by simp)
    have hlr : ∀ f ∈ rest, ∀ i, f i < s.nextId := fun f hf => hlt f (by simp [hf])
    rw [List.map_cons, chunkLoop, chunkLoop]
    cases first with
    | true =>
      rw [if_pos rfl, if_pos rfl, if_pos rfl, hfd rfl]
      dsimp only
      obtain ⟨ρ₁, p1, p2, p3, p4, p5, p6⟩ := processStep_cut hc t h last1 cur hl1 hlc ch3
      generalize processStep c t last1 cur s = r at p2 p3 p4 p5 p6
      generalize processStep c t (cutFrame ρ last1) (cutFrame ρ cur) s' = r' at p3 p4
      obtain ⟨ρ₂, q⟩ := ih ρ₁ (t + 1) last1 r.1 [] false r.2 r'.2 p3 (by simp)
        (by
          intro f hf i
          rcases List.mem_cons.mp hf with rfl | hf
          · have := hl1 i; omega
          · rcases List.mem_cons.mp hf with rfl | hf
            · exact p6 i
            · have := hlr f (by simpa using hf) i; omega)
        (by
          rw [side_congr p1 hl1, p5, map_side_congr p1 hlr]
          exact ch2)
      rw [cutFrame_congr p1 hl1, ← p4, map_cutFrame_congr p1 hlr, List.map_nil] at q
      refine ⟨ρ₂, fun k hk => by rw [q.old k (by omega), p1 k hk], le_trans p2 q.le, q.tab, q.frames, ?_, q.lt⟩
      rw [q.sides]
      simp only [List.reverse_nil, List.nil_append, List.map_append, List.map_cons, List.map_nil, if_neg (show ¬ (false = true) by simp)]
      rw [p5, map_side_congr p1 hlr]
      rfl
    | false =>
      rw [if_neg (by simp), if_neg (by simp), if_neg (by simp)]
      dsimp only
      obtain ⟨k1, k2, k3, k4⟩ := consolidate_tab hc h last2 last1 ch1 hl1
      rw [k2]
      generalize consolidate c last2 last1 s.props = k at k1 k2 k3 k4
      generalize consolidate c (cutFrame ρ last2) (cutFrame ρ last1) s'.props = k' at k1 k2
      obtain ⟨ρ₁, p1, p2, p3, p4, p5, p6⟩ := processStep_cut hc t k1 k.1 cur k4 hlc (by rw [k3]; exact ch3)
      dsimp only at p1 p2
      generalize processStep c t k.1 cur { s with props := k.2 } = r at p2 p3 p4 p5 p6
      generalize processStep c t (cutFrame ρ k.1) (cutFrame ρ cur) { s' with props := k'.2 } = r' at p3 p4
      have hld : ∀ f ∈ done, ∀ i, f i < s.nextId := fun f hf => hlt f (by simp [hf])
      obtain ⟨ρ₂, q⟩ := ih ρ₁ (t + 1) k.1 r.1 (k.1 :: done) false r.2 r'.2 p3 (by simp)
        (by
          intro f hf i
          simp only [List.mem_cons, List.mem_append] at hf
          rcases hf with rfl | rfl | (rfl | hf) | hf
          · have := k4 i; omega
          · exact p6 i
          · have := k4 i; omega
          · have := hld f hf i; omega
          · have := hlr f hf i; omega)
        (by
          rw [side_congr p1 k4, k3, p5, map_side_congr p1 hlr]
          exact ch2)
      rw [cutFrame_congr p1 k4, ← p4, map_cutFrame_congr p1 hlr, List.map_cons, cutFrame_congr p1 k4, map_cutFrame_congr p1 hld] at q
      refine ⟨ρ₂, fun k hk => by rw [q.old k (by omega), p1 k hk], le_trans p2 q.le, q.tab, q.frames, ?_, q.lt⟩
      rw [q.sides]
      simp only [List.reverse_cons, List.map_append, List.map_cons, List.map_nil, if_neg (show ¬ (false = true) by simp), List.map_reverse]
      rw [p5, side_congr p1 k4, k3, map_side_congr p1 hlr, map_side_congr p1 hld]
      simp

theorem cutFrame_zero {ρ : Nat → Nat} (h : ρ 0 = 0) : cutFrame ρ (zeroFrame : Frame n) = zeroFrame := by
  funext i
  exact h

theorem apart_zero (ρ : Nat → Nat) (y : Fin n → Option Bool) : Apart (side ρ zeroFrame) y := by
  intro i a b h
  simp [side, zeroFrame] at h

/-- The two frames before a chunk. -/
theorem lastTwo_chain (ρ : Nat → Nat) (prev L : List (Frame n)) (h : List.IsChain Apart ((prev ++ L).map (side ρ))) :
    List.IsChain Apart (side ρ (prev.dropLast.getLast?.getD zeroFrame) :: side ρ (prev.getLast?.getD zeroFrame) :: L.map (side ρ)) := by
  have zero_cons : ∀ l, List.IsChain Apart l → List.IsChain Apart (side ρ (zeroFrame : Frame n) :: l) := by
    intro l hl
    cases l with
    | nil => exact .singleton _
    | cons a l => exact .cons_cons (apart_zero ρ a) hl
  rcases List.eq_nil_or_concat prev with rfl | ⟨p, b, rfl⟩
  · exact zero_cons _ (zero_cons _ h)
  · rw [List.concat_eq_append] at h ⊢
    rw [List.dropLast_concat, List.getLast?_concat, Option.getD_some]
    rcases List.eq_nil_or_concat p with rfl | ⟨q, a, rfl⟩
    · exact zero_cons _ h
    · rw [List.concat_eq_append] at h ⊢
      rw [List.getLast?_concat, Option.getD_some]
      rw [List.append_assoc, List.append_assoc, List.map_append] at h
      exact h.right_of_append

theorem chunksLoop_cut {c : TrackCfg n} (hc : Faithful c) (chs : List (List (Frame n))) :
    ∀ (ρ : Nat → Nat) (t : Nat) (prev : List (Frame n)) (s s' : SMState), Tab ρ s s' →
      (∀ f ∈ prev ++ chs.flatten, ∀ i, f i < s.nextId) → List.IsChain Apart ((prev ++ chs.flatten).map (side ρ)) →
      ∃ ρ₁, Looped ρ s.nextId (chs.flatten.map (side ρ)) (chunksLoop c t prev chs s)
        (chunksLoop c t (prev.map (cutFrame ρ)) (chs.map (List.map (cutFrame ρ))) s') ρ₁ := by
  induction chs with
  | nil =>
    intro ρ t prev s s' h _ _
    exact ⟨ρ, fun _ _ => rfl, le_refl _, h, rfl, rfl, fun f hf => by cases hf⟩
  | cons ch chs ih =>
    intro ρ t prev s s' h hlt hch
    rw [List.map_cons, chunksLoop, chunksLoop]
    have z := cutFrame_zero (n := n) h.cut.zero
    have e1 : (prev.map (cutFrame ρ)).getLast?.getD zeroFrame = cutFrame ρ (prev.getLast?.getD zeroFrame) := by
      rw [List.getLast?_map]
      cases prev.getLast? with
      | none => exact z.symm
      | some a => rfl
    have e2 : (prev.map (cutFrame ρ)).dropLast.getLast?.getD zeroFrame = cutFrame ρ (prev.dropLast.getLast?.getD zeroFrame) := by
      rw [← List.map_dropLast, List.getLast?_map]
      cases prev.dropLast.getLast? with
      | none => exact z.symm
      | some a => rfl
    rw [e1, e2, List.length_map]
    have hget : ∀ (l : List (Frame n)), (∀ f ∈ l, f ∈ prev) → ∀ i, l.getLast?.getD zeroFrame i < s.nextId := by
      intro l hl i
      cases hh : l.getLast? with
      | none => exact h.pos
      | some a => exact hlt a (List.mem_append_left _ (hl a (List.mem_of_getLast? hh))) i
    have hlf : ∀ f ∈ chs.flatten, ∀ i, f i < s.nextId := fun f hf => hlt f (by simp only [List.mem_append, List.flatten_cons]; exact Or.inr (Or.inr hf))
    have hchain := lastTwo_chain ρ prev (ch :: chs).flatten hch
    rw [List.flatten_cons] at hch hchain
    have hchain1 : List.IsChain Apart (side ρ (prev.dropLast.getLast?.getD zeroFrame) :: side ρ (prev.getLast?.getD zeroFrame) :: ch.map (side ρ)) := by
      have : side ρ (prev.dropLast.getLast?.getD zeroFrame) :: side ρ (prev.getLast?.getD zeroFrame) :: (ch ++ chs.flatten).map (side ρ) =
          (side ρ (prev.dropLast.getLast?.getD zeroFrame) :: side ρ (prev.getLast?.getD zeroFrame) :: ch.map (side ρ)) ++ chs.flatten.map (side ρ) := by simp
      rw [this] at hchain
      exact hchain.left_of_append
    obtain ⟨ρ₁, q⟩ := chunkLoop_cut hc ch ρ t (prev.dropLast.getLast?.getD zeroFrame) (prev.getLast?.getD zeroFrame) [] true s s' h (fun _ => rfl)
      (by
        intro f hf
        rcases List.mem_cons.mp hf with rfl | hf
        · exact hget _ fun f hf => List.mem_of_mem_dropLast hf
        · rcases List.mem_cons.mp hf with rfl | hf
          · exact hget _ fun f hf => hf
          · exact hlt f (by simp only [List.mem_append, List.flatten_cons]; exact Or.inr (Or.inl (by simpa using hf)))) hchain1
    rw [List.map_nil] at q
    generalize chunkLoop c t (prev.dropLast.getLast?.getD zeroFrame) (prev.getLast?.getD zeroFrame) [] true ch s = r at q
    generalize chunkLoop c t (cutFrame ρ (prev.dropLast.getLast?.getD zeroFrame)) (cutFrame ρ (prev.getLast?.getD zeroFrame)) [] true
      (ch.map (cutFrame ρ)) s' = r' at q
    have qs : r.1.map (side ρ₁) = ch.map (side ρ) := by rw [q.sides]; simp
    obtain ⟨ρ₂, p⟩ := ih ρ₁ (t + ch.length) r.1 r.2 r'.2 q.tab
      (by
        intro f hf i
        rcases List.mem_append.mp hf with hf | hf
        · exact q.lt f hf i
        · exact lt_of_lt_of_le (hlf f hf i) q.le)
      (by
        rw [List.map_append, qs, map_side_congr q.old hlf, ← List.map_append]
        rw [List.map_append] at hch
        exact hch.right_of_append)
    rw [← q.frames, List.map_congr_left (g := List.map (cutFrame ρ)) fun l hl => map_cutFrame_congr q.old fun f hf => hlf f (List.mem_flatten_of_mem hl hf)] at p
    refine ⟨ρ₂, fun k hk => by rw [p.old k (lt_of_lt_of_le hk q.le), q.old k hk], le_trans q.le p.le, p.tab, ?_, ?_, ?_⟩
    · dsimp only
      rw [p.frames, q.frames, List.map_append, map_cutFrame_congr p.old q.lt]
    · dsimp only
      rw [List.map_append, p.sides, map_side_congr p.old q.lt, qs, map_side_congr q.old hlf, List.flatten_cons, List.map_append]
    · intro f hf i
      rcases List.mem_append.mp hf with hf | hf
      · exact lt_of_lt_of_le (q.lt f hf i) p.le
      · exact p.lt f hf i

/-! ### Links and events -/

/-- The links of a field. -/
def linkPairs (c : TrackCfg n) (props : List Obj) (fs : List (Frame n)) : List (Nat × Nat) :=
  (enforceOverlap c.thr props (findOverlaps c.w fs)).map fun o => (o.a, o.b)

theorem mem_linkPairs {c : TrackCfg n} {props : List Obj} {fs : List (Frame n)} {a b : Nat} :
    (a, b) ∈ linkPairs c props fs ↔ 0 < a ∧ 0 < b ∧ (∃ p ∈ fs.zip fs.tail, ∃ i, p.1 i = a ∧ p.2 i = b) ∧
      (∃ x y, areaOf props a = some x ∧ areaOf props b = some y ∧
        fractionAtLeast ((fs.zip fs.tail).map fun p => sharedWeight c.w p.1 p.2 a b).sum (min x y) c.thr = true) := by
  unfold linkPairs enforceOverlap
  rw [List.mem_map]
  constructor
  · rintro ⟨o, ho, e⟩
    rw [Prod.mk.injEq] at e
    obtain ⟨rfl, rfl⟩ := e
    rw [List.mem_filter] at ho
    obtain ⟨h1, h2, h3, h4⟩ := mem_findOverlaps.mp ho.1
    refine ⟨h1, h2, h3, ?_⟩
    have := ho.2
    split at this
    · rename_i x y hx hy
      exact ⟨x, y, hx, hy, by rw [← h4]; exact this⟩
    · cases this
  · rintro ⟨h1, h2, h3, x, y, hx, hy, h⟩
    refine ⟨⟨a, b, ((fs.zip fs.tail).map fun p => sharedWeight c.w p.1 p.2 a b).sum⟩, List.mem_filter.mpr ⟨mem_findOverlaps.mpr ⟨h1, h2, h3, rfl⟩, ?_⟩, rfl⟩
    dsimp only
    rw [hx, hy]
    exact h

theorem zip_tail_map (F : Frame n → Frame n) (fs : List (Frame n)) :
    (fs.map F).zip (fs.map F).tail = (fs.zip fs.tail).map fun p => (F p.1, F p.2) := by
  rw [← List.map_tail, List.zip_map]
  rfl

theorem linkPairs_cut {ρ : Nat → Nat} {N N' : Nat} (hρ : Cut ρ N N') (c : TrackCfg n) (props : List Obj) (fs : List (Frame n)) {a b : Nat} (ha : ρ a ≠ 0)
    (hb : ρ b ≠ 0) : (ρ a, ρ b) ∈ linkPairs c (cutProps ρ props) (fs.map (cutFrame ρ)) ↔ (a, b) ∈ linkPairs c props fs := by
  rw [mem_linkPairs, mem_linkPairs, zip_tail_map, areaOf_cut hρ props ha, areaOf_cut hρ props hb, List.map_map]
  have e : ((fs.zip fs.tail).map ((fun p : Frame n × Frame n => sharedWeight c.w p.1 p.2 (ρ a) (ρ b)) ∘ fun p => (cutFrame ρ p.1, cutFrame ρ p.2))) =
      (fs.zip fs.tail).map fun p => sharedWeight c.w p.1 p.2 a b :=
    List.map_congr_left fun p _ => sharedWeight_cut hρ c.w p.1 p.2 ha hb
  rw [e]
  have e2 : (∃ p ∈ (fs.zip fs.tail).map fun p : Frame n × Frame n => (cutFrame ρ p.1, cutFrame ρ p.2), ∃ i, p.1 i = ρ a ∧ p.2 i = ρ b) ↔
      ∃ p ∈ fs.zip fs.tail, ∃ i, p.1 i = a ∧ p.2 i = b := by
    constructor
    · rintro ⟨q, hq, i, h1, h2⟩
      obtain ⟨p, hp, rfl⟩ := List.mem_map.mp hq
      exact ⟨p, hp, i, hρ.inj ha h1, hρ.inj hb h2⟩
    · rintro ⟨p, hp, i, rfl, rfl⟩
      exact ⟨_, List.mem_map.mpr ⟨p, hp, rfl⟩, i, rfl, rfl⟩
  rw [e2]
  have pa : 0 < a := Nat.pos_of_ne_zero fun e => ha (by rw [e, hρ.zero])
  have pb : 0 < b := Nat.pos_of_ne_zero fun e => hb (by rw [e, hρ.zero])
  simp only [pa, pb, Nat.pos_of_ne_zero ha, Nat.pos_of_ne_zero hb, true_and]

theorem chain_get {α : Type} {R : α → α → Prop} {l : List α} (h : l.IsChain R) {t : Nat} {a b : α} (ha : l[t]? = some a) (hb : l[t + 1]? = some b) : R a b := by
  obtain ⟨h1, e1⟩ := List.getElem?_eq_some_iff.mp ha
  obtain ⟨h2, e2⟩ := List.getElem?_eq_some_iff.mp hb
  rw [← e1, ← e2]
  exact List.isChain_iff_getElem.mp h t h2

theorem linkPairs_apart {ρ : Nat → Nat} (c : TrackCfg n) (props : List Obj) {fs : List (Frame n)} (h : List.IsChain Apart (fs.map (side ρ))) {a b : Nat}
    (hab : (a, b) ∈ linkPairs c props fs) : ρ a = 0 ↔ ρ b = 0 := by
  obtain ⟨pa, pb, ⟨p, hp, i, h1, h2⟩, _⟩ := mem_linkPairs.mp hab
  obtain ⟨t, ht⟩ := List.mem_iff_getElem?.mp hp
  rw [List.getElem?_zip_eq_some] at ht
  obtain ⟨t1, t2⟩ := ht
  rw [List.getElem?_tail] at t2
  have hA := chain_get h (t := t) (a := side ρ p.1) (b := side ρ p.2) (by rw [List.getElem?_map, t1]; rfl) (by rw [List.getElem?_map, t2]; rfl)
  have := hA i (decide (ρ (p.1 i) ≠ 0)) (decide (ρ (p.2 i) ≠ 0)) (by unfold side; rw [if_neg (by omega)]) (by unfold side; rw [if_neg (by omega)])
  rw [h1, h2, decide_eq_decide] at this
  exact not_iff_not.mp this

theorem linked_cut {ρ : Nat → Nat} {N N' : Nat} (hρ : Cut ρ N N') (c : TrackCfg n) (props : List Obj) (fs : List (Frame n))
    (h : List.IsChain Apart (fs.map (side ρ))) {a b : Nat} (ha : ρ a ≠ 0) (hb : ρ b ≠ 0) :
    Spec.Linked (fun u v => (u, v) ∈ linkPairs c (cutProps ρ props) (fs.map (cutFrame ρ))) (ρ a) (ρ b) ↔
    Spec.Linked (fun u v => (u, v) ∈ linkPairs c props fs) a b := by
  classical
  constructor
  · intro hl
    obtain ⟨g, hg⟩ : ∃ g : Nat → Nat, ∀ k, ρ k ≠ 0 → g (ρ k) = k := by
      refine ⟨fun x => if hx : ∃ k, ρ k = x then hx.choose else 0, fun k hk => ?_⟩
      have hx : ∃ j, ρ j = ρ k := ⟨k, rfl⟩
      dsimp only
      rw [dif_pos hx]
      exact hρ.inj hk hx.choose_spec
    have   := Spec.Linked.map (F := fun u v => (u, v) ∈ linkPairs c props fs) g (fun u v huv => by
      obtain ⟨pu, pv, ⟨q, hq, i, h1, h2⟩, _⟩ := mem_linkPairs.mp huv
      rw [zip_tail_map] at hq
      obtain ⟨p, hp, rfl⟩ := List.mem_map.mp hq
      have e1 : ρ (p.1 i) = u := h1
      have e2 : ρ (p.2 i) = v := h2
      have n1 : ρ (p.1 i) ≠ 0 := by omega
      have n2 : ρ (p.2 i) ≠ 0 := by omega
      rw [← e1, ← e2] at huv ⊢
      rw [hg _ n1, hg _ n2]
      exact .fwd (.refl _) ((linkPairs_cut hρ c props fs n1 n2).mp huv)) hl
    rwa [hg a ha, hg b hb] at this
  · intro hl
    exact Spec.Linked.map ρ (fun u v huv => by
      have hs := linkPairs_apart c props h huv
      by_cases hu : ρ u = 0
      · rw [hu, hs.mp hu]
        exact .refl _
      · exact .fwd (.refl _) ((linkPairs_cut hρ c props fs hu fun e => hu (hs.mpr e)).mpr huv)) hl

/-- Starting table. -/
theorem firstNewId_gt (props : List Obj) : ∀ o ∈ props, o.id < firstNewId props := by
  have gen : ∀ (l : List Obj) (m : Nat), m ≤ l.foldl (fun m o => max m o.id) m ∧ ∀ o ∈ l, o.id ≤ l.foldl (fun m o => max m o.id) m := by
    intro l
    induction l with
    | nil => intro m; exact ⟨le_refl _, fun o h => by cases h⟩
    | cons a l ih =>
      intro m
      obtain ⟨h1, h2⟩ := ih (max m a.id)
      rw [List.foldl_cons]
      refine ⟨le_trans (le_max_left _ _) h1, fun o ho => ?_⟩
      rcases List.mem_cons.mp ho with rfl | ho
      · exact le_trans (le_max_right _ _) h1
      · exact h2 o ho
  intro o ho
  unfold firstNewId
  have := (gen props 0).2 o ho
  omega

end MarEx
