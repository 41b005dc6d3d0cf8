import Verif.Model.Session
import Verif.Props.Cluster
/-! C195, C196, C197: where the temporary files of a session go, how long checkpointed data live, and what `preprocess_data`
leaves behind in the configuration of dask. -/
namespace MarEx.Props
open Spec

theorem session_nil (sys : String) (s : Session) : session sys s [] = s := rfl

theorem session_cons (sys : String) (s : Session) (o : Op) (ops : List Op) :
    session sys s (o :: ops) = session sys (sessionStep sys s o) ops := rfl

theorem session_append (sys : String) (s : Session) (a b : List Op) :
    session sys s (a ++ b) = session sys (session sys s a) b := by simp [session, List.foldl_append]

/-! ### C195 -/

/-- **C195** `checkpoint_to_zarr` writes into a directory that exists, after every history of cluster starts (successful or
not), configurations, removals and other calls: the system's temporary directory, or the one dask is configured with. -/
theorem C195_directory_exists (sys : String) (s : Session) (ops : List Op) :
    checkpointDir sys (session sys s ops) = sys ∨
    (checkpointDir sys (session sys s ops) ∈ (session sys s ops).dirs ∧
      (session sys s ops).world.cfg "temporary_directory" = some (checkpointDir sys (session sys s ops))) := by
  unfold checkpointDir
  split
  · exact .inl rfl
  · next d hd =>
    split
    · next h => exact .inr ⟨by simpa using h, hd⟩
    · exact .inl rfl

/-- The names under which checkpoints are written by a history. -/
def written (ops : List Op) : List String := ops.filterMap fun o => match o with | .checkpoint id => some id | _ => none

theorem readable_after (sys : String) (id d : String) (ops : List Op) (hw : id ∉ written ops) :
    ∀ s : Session, (∀ f ∈ s.files, f.1 = id → f.2 = d) → readable s id = true →
      (readable (session sys s ops) id = true ↔ Op.removed d ∉ ops) := by
  induction ops with
  | nil => intro s _ hr; simpa [session_nil] using hr
  | cons o ops ih =>
    intro s hf hr
    rw [session_cons]
    have hw' : id ∉ written ops := by
      intro h; apply hw; unfold written at h ⊢
      rw [List.filterMap_cons]; split <;> simp_all
    -- once gone it stays gone
    have gone : ∀ (ops : List Op) (s : Session), id ∉ written ops → readable s id = false →
        readable (session sys s ops) id = false := by
      intro ops
      induction ops with
      | nil => intro s _ h; exact h
      | cons o ops ih =>
        intro s hw h
        rw [session_cons]
        apply ih
        · intro h; apply hw; unfold written at h ⊢
          rw [List.filterMap_cons]; split <;> simp_all
        · unfold readable at h ⊢
          rw [List.any_eq_false] at h ⊢
          cases o with
          | removed d' => intro x hx; exact h x (List.mem_of_mem_filter hx)
          | checkpoint id' =>
            have : id' ≠ id := by rintro rfl; exact hw (by simp [written])
            intro x hx
            rcases List.mem_cons.1 hx with rfl | hx
            · simpa using this
            · exact h x hx
          | preprocess a => cases a <;> exact h
          | _ => exact h
    cases o with
    | removed d' =>
      by_cases hd : d' = d
      · subst hd
        have : readable (sessionStep sys s (.removed d')) id = false := by
          unfold readable sessionStep
          rw [List.any_eq_false]
          intro x hx
          have hx := List.mem_filter.1 hx
          intro he
          have := hf x hx.1 (by simpa using he)
          simp [this] at hx
        simp [gone ops _ hw' this]
      · rw [ih hw']
        · have : Op.removed d ≠ Op.removed d' := by rintro h; injection h with h; exact hd h.symm
          simp [this]
        · intro f hm; exact hf f (List.mem_of_mem_filter hm)
        · unfold readable at hr ⊢
          rw [List.any_eq_true] at hr ⊢
          obtain ⟨x, hx, he⟩ := hr
          refine ⟨x, List.mem_filter.2 ⟨hx, ?_⟩, he⟩
          have := hf x hx (by simpa using he)
          simpa [this] using fun h => hd h.symm
    | checkpoint id' =>
      have hne : id' ≠ id := by rintro rfl; exact hw (by simp [written])
      rw [ih hw']
      · simp
      · intro f hm he
        rcases List.mem_cons.1 hm with rfl | hm
        · exact absurd he hne
        · exact hf f hm he
      · unfold readable at hr ⊢
        simp only [sessionStep, List.any_cons, hr, Bool.or_true]
    | preprocess a => rw [ih hw']; · simp
                      · cases a <;> exact hf
                      · cases a <;> exact hr
    | startLocal => rw [ih hw']; · simp
                    · exact hf
                    · exact hr
    | startDistributed => rw [ih hw']; · simp
                          · exact hf
                          · exact hr
    | configure => rw [ih hw']; · simp
                   · exact hf
                   · exact hr
    | userSet => rw [ih hw']; · simp
                 · exact hf
                 · exact hr

/-- **C195** Checkpointed data can be computed exactly as long as the directory they were written to is there: for every
history before the checkpoint and every history after it (cluster starts, failed starts, new configurations, further
checkpoints under other names), nothing but the removal of that directory loses them.  Missing: the directory may go while the
session lasts (`C195_lost_with_client_fails`). -/
theorem C195_readable_iff_partial (sys : String) (s : Session) (before after : List Op) (id : String)
    (hb : readable (session sys s before) id = false) (ha : id ∉ written after) :
    readable (session sys s (before ++ .checkpoint id :: after)) id = true ↔
      Op.removed (checkpointDir sys (session sys s before)) ∉ after := by
  rw [session_append, session_cons]
  apply readable_after sys id _ after ha
  · intro f hm he
    rcases List.mem_cons.1 hm with rfl | hm
    · rfl
    · exfalso
      unfold readable at hb
      rw [List.any_eq_false] at hb
      exact hb f hm (by simpa using he)
  · simp [readable, sessionStep]

/-- The temporary directory of dask after a successful start. -/
theorem startLocal_tempDir (env : LogEnv) (site : Site) (hs : site.scratchOk = true) (n t : Nat) (v q : Option Bool) (w : World) :
    (startLocal env site n t v q w).1.cfg "temporary_directory" = some site.tmp := by
  have key : ∀ c, configureDask site.tmp [] c "temporary_directory" = some site.tmp := fun c =>
    (C94_precedence site.tmp [] c).2.2.1 (by simp)
  unfold startLocal
  simp only [hs, Bool.not_true, Bool.false_eq_true, if_false]
  split
  · exact key w.cfg
  · split <;> simp only [daskSet_apply, show lastSetting bokehSetting "temporary_directory" = none from by decide +kernel, key] <;> rfl

/-- Operations that leave the name of dask's temporary directory alone. -/
def KeepsTempDir : Op → Prop
  | .removed _ | .preprocess _ | .checkpoint _ => True
  | .userSet kv => ∀ u, ("temporary_directory", u) ∉ kv
  | _ => False

theorem keeps_step (sys : String) (s : Session) (o : Op) (h : KeepsTempDir o) :
    (sessionStep sys s o).world.cfg "temporary_directory" = s.world.cfg "temporary_directory" ∧
    ∀ d, d ∈ (sessionStep sys s o).dirs ↔ d ∈ s.dirs ∧ o ≠ .removed d := by
  cases o with
  | removed d =>
    refine ⟨rfl, fun d' => ?_⟩
    simp only [sessionStep, List.mem_filter, bne_iff_ne, ne_eq, Op.removed.injEq]
    constructor <;> rintro ⟨a, b⟩ <;> exact ⟨a, fun e => b e.symm⟩
  | preprocess a =>
    cases a
    · exact ⟨rfl, fun d => by simp [sessionStep]⟩
    · refine ⟨?_, fun d => by simp [sessionStep]⟩
      simp only [sessionStep, if_true, daskSet_apply,
        show lastSetting splitLarge "temporary_directory" = none from by decide +kernel]
      rfl
  | checkpoint id => exact ⟨rfl, fun d => by simp [sessionStep]⟩
  | userSet kv =>
    refine ⟨?_, fun d => by simp [sessionStep]⟩
    simp only [sessionStep, daskSet_apply, lastSetting_none.2 h]
    rfl
  | startLocal => exact h.elim
  | startDistributed => exact h.elim
  | configure => exact h.elim

theorem keeps_session (sys : String) (ops : List Op) (h : ∀ o ∈ ops, KeepsTempDir o) : ∀ s : Session,
    (session sys s ops).world.cfg "temporary_directory" = s.world.cfg "temporary_directory" ∧
    ∀ d, d ∈ (session sys s ops).dirs ↔ d ∈ s.dirs ∧ Op.removed d ∉ ops := by
  induction ops with
  | nil => intro s; exact ⟨rfl, fun d => by simp [session_nil]⟩
  | cons o ops ih =>
    intro s
    rw [session_cons]
    obtain ⟨h1, h2⟩ := keeps_step sys s o (h o (by simp))
    obtain ⟨h3, h4⟩ := ih (fun o ho => h o (by simp [ho])) (sessionStep sys s o)
    refine ⟨h3.trans h1, fun d => ?_⟩
    rw [h4, h2]
    simp only [List.mem_cons, not_or]
    constructor
    · rintro ⟨⟨a, b⟩, c⟩; exact ⟨a, fun e => b e.symm, c⟩
    · rintro ⟨a, b, c⟩; exact ⟨⟨a, fun e => b e.symm⟩, c⟩

/-- **C195** negative: data checkpointed while a local cluster runs do not outlive its client.  For every session in which a
cluster was started successfully, whatever was done between the start and the checkpoint that leaves dask's temporary
directory alone, and whatever is done after the checkpoint: once the client is given up, the data cannot be computed. -/
theorem C195_lost_with_client_fails (sys : String) (s : Session) (env : LogEnv) (site : Site) (n t : Nat) (v q : Option Bool)
    (hs : site.scratchOk = true) (hok : ∃ r, (startLocal env site n t v q s.world).2 = .ok r) (between after : List Op) (id : String)
    (hbt : ∀ o ∈ between, KeepsTempDir o) (halive : Op.removed site.tmp ∉ between)
    (hb : readable (session sys s (.startLocal env site n t v q :: between)) id = false) (ha : id ∉ written after)
    (hgone : Op.removed site.tmp ∈ after) :
    readable (session sys s (.startLocal env site n t v q :: between ++ .checkpoint id :: after)) id = false := by
  have hd : checkpointDir sys (session sys s (.startLocal env site n t v q :: between)) = site.tmp := by
    rw [session_cons]
    obtain ⟨h1, h2⟩ := keeps_session sys between hbt (sessionStep sys s (.startLocal env site n t v q))
    obtain ⟨r, hr⟩ := hok
    have ht := startLocal_tempDir env site hs n t v q s.world
    have hm : site.tmp ∈ (session sys (sessionStep sys s (.startLocal env site n t v q)) between).dirs :=
      (h2 _).2 ⟨by simp [sessionStep, hr], halive⟩
    unfold checkpointDir
    rw [h1, show (sessionStep sys s (.startLocal env site n t v q)).world.cfg "temporary_directory" = some site.tmp from ht]
    simp [hm]
  have := C195_readable_iff_partial sys s (.startLocal env site n t v q :: between) after id hb ha
  rw [hd] at this
  rw [Bool.eq_false_iff]
  intro h
  exact this.1 h hgone

/-- A machine on which the starts succeed. -/
def demoSite (tmp : String) : Site :=
  { physical := 8, logical := 16, tmp := tmp, isDigit := Char.isDigit, link := "http://h:87/status".toList }

/-- No environment variables set. -/
def demoEnv : LogEnv := ⟨false, false, 20⟩

/-- A fresh session. -/
def demoSession : Session := ⟨⟨fun _ => none, ⟨true, .normal, 20⟩, []⟩, [], []⟩

/-- A cluster is started, a checkpoint is written into its directory; it can be read while a second cluster is started, and no
longer once the first client is given up. -/
example : let env := demoEnv
    let start1 := Op.startLocal env (demoSite "/tmp/a") 4 1 none none
    let start2 := Op.startLocal env (demoSite "/tmp/b") 4 1 none none
    checkpointDir "/tmp" (session "/tmp" demoSession [start1]) = "/tmp/a" ∧
    readable (session "/tmp" demoSession [start1, .checkpoint "x", start2]) "x" = true ∧
    readable (session "/tmp" demoSession [start1, .checkpoint "x", start2, .removed "/tmp/a"]) "x" = false := by
  decide +kernel

/-! ### C196 -/

/-- **C196** While the directory that dask is configured with is there, `animate` has a place for its frames: after a
successful start of a local cluster, and any operations that neither remove that directory nor name another one, the frames
go there; in a session where dask has no temporary directory they go to the system's.  Missing: sessions in which the directory
was removed or a start failed (`C196_no_movie_after_client_fails`, `C196_no_movie_after_failed_start_fails`). -/
theorem C196_frames_have_a_place_partial (sys : String) (s : Session) :
    (∀ (env : LogEnv) (site : Site) (n t : Nat) (v q : Option Bool) (ops : List Op), site.scratchOk = true →
      (∃ r, (startLocal env site n t v q s.world).2 = .ok r) → (∀ o ∈ ops, KeepsTempDir o) → Op.removed site.tmp ∉ ops →
      framesDir sys (session sys s (.startLocal env site n t v q :: ops)) = some site.tmp) ∧
    (∀ ops : List Op, s.world.cfg "temporary_directory" = none → (∀ o ∈ ops, KeepsTempDir o) →
      framesDir sys (session sys s ops) = some sys) := by
  refine ⟨fun env site n t v q ops hs ⟨r, hr⟩ hk hn => ?_, fun ops h0 hk => ?_⟩
  · rw [session_cons]
    obtain ⟨h1, h2⟩ := keeps_session sys ops hk (sessionStep sys s (.startLocal env site n t v q))
    have ht := startLocal_tempDir env site hs n t v q s.world
    have hm := (h2 site.tmp).2 ⟨by simp [sessionStep, hr], hn⟩
    unfold framesDir
    rw [h1, show (sessionStep sys s (.startLocal env site n t v q)).world.cfg "temporary_directory" = some site.tmp from ht]
    simp [hm]
  · obtain ⟨h1, _⟩ := keeps_session sys ops hk s
    unfold framesDir
    rw [h1, h0]

/-- **C196** negative: once the client of the last cluster is given up, `animate` raises: dask is still configured with the
directory that went away with the client, and `animate`, unlike `checkpoint_to_zarr`, does not check that it exists.  For every
session and everything done before and after that leaves the setting alone. -/
theorem C196_no_movie_after_client_fails (sys : String) (s : Session) (env : LogEnv) (site : Site) (n t : Nat)
    (v q : Option Bool) (hs : site.scratchOk = true) (hsys : site.tmp ≠ sys) (ops : List Op) (hk : ∀ o ∈ ops, KeepsTempDir o)
    (hgone : Op.removed site.tmp ∈ ops) :
    framesDir sys (session sys s (.startLocal env site n t v q :: ops)) = none ∧
    checkpointDir sys (session sys s (.startLocal env site n t v q :: ops)) = sys := by
  rw [session_cons]
  obtain ⟨h1, h2⟩ := keeps_session sys ops hk (sessionStep sys s (.startLocal env site n t v q))
  have ht := startLocal_tempDir env site hs n t v q s.world
  have hm : site.tmp ∉ (session sys (sessionStep sys s (.startLocal env site n t v q)) ops).dirs := fun h =>
    ((h2 _).1 h).2 hgone
  unfold framesDir checkpointDir
  rw [h1, show (sessionStep sys s (.startLocal env site n t v q)).world.cfg "temporary_directory" = some site.tmp from ht]
  simp [hm, hsys]

/-- **C196** negative: the same after a start that failed (for example `start_local_cluster(n_workers=0)`, or a dashboard
link without a port): dask keeps the name of a directory that is removed with the failed call, and `animate` raises from then
on, also if it worked before. -/
theorem C196_no_movie_after_failed_start_fails (sys : String) (s : Session) (env : LogEnv) (site : Site) (n t : Nat)
    (v q : Option Bool) (hs : site.scratchOk = true) (hsys : site.tmp ≠ sys) (hnew : site.tmp ∉ s.dirs)
    (hfail : ∃ e, (startLocal env site n t v q s.world).2 = .error e) (ops : List Op) (hk : ∀ o ∈ ops, KeepsTempDir o) :
    framesDir sys (session sys s (.startLocal env site n t v q :: ops)) = none := by
  rw [session_cons]
  obtain ⟨h1, h2⟩ := keeps_session sys ops hk (sessionStep sys s (.startLocal env site n t v q))
  have ht := startLocal_tempDir env site hs n t v q s.world
  obtain ⟨e, he⟩ := hfail
  have hm : site.tmp ∉ (session sys (sessionStep sys s (.startLocal env site n t v q)) ops).dirs := fun h => by
    have := ((h2 _).1 h).1
    simp only [sessionStep, he] at this
    exact hnew this
  unfold framesDir
  rw [h1, show (sessionStep sys s (.startLocal env site n t v q)).world.cfg "temporary_directory" = some site.tmp from ht]
  simp [hm, hsys]

/-- **C196** What happens after `configure_dask`: the frames have a place exactly if the caller keeps the returned object (or
the directory was there before) and nobody removes it; a caller who ignores the returned object cannot make a movie from then
on.  Missing: that last case, in which the property is false. -/
theorem C196_configure_iff_partial (sys : String) (s : Session) (tmp : String) (config : List (String × String)) (kept : Bool)
    (hc : ∀ u, ("temporary_directory", u) ∉ config) (hsys : tmp ≠ sys) (hnew : tmp ∉ s.dirs) (ops : List Op)
    (hk : ∀ o ∈ ops, KeepsTempDir o) :
    (kept = true ∧ Op.removed tmp ∉ ops → framesDir sys (session sys s (.configure tmp config kept :: ops)) = some tmp) ∧
    (kept = false ∨ Op.removed tmp ∈ ops → framesDir sys (session sys s (.configure tmp config kept :: ops)) = none) := by
  rw [session_cons]
  obtain ⟨h1, h2⟩ := keeps_session sys ops hk (sessionStep sys s (.configure tmp config kept))
  have ht : (sessionStep sys s (.configure tmp config kept)).world.cfg "temporary_directory" = some tmp :=
    (C94_precedence tmp config s.world.cfg).2.2.1 hc
  have hm : tmp ∈ (session sys (sessionStep sys s (.configure tmp config kept)) ops).dirs ↔ kept = true ∧ Op.removed tmp ∉ ops := by
    rw [h2]
    cases kept <;> simp [sessionStep, hnew]
  unfold framesDir
  rw [h1, ht]
  constructor
  · intro h
    simp [hm.2 h]
  · intro h
    have : tmp ∉ (session sys (sessionStep sys s (.configure tmp config kept)) ops).dirs := by
      rw [hm]
      rintro ⟨h1, h2⟩
      rcases h with h | h
      · rw [h] at h1; cases h1
      · exact h2 h
    simp [this, hsys]

/-- A session of the three kinds: movies can be made before, with the cluster, and not after it; a start with no workers. -/
example : let env := demoEnv
    let start := Op.startLocal env (demoSite "/tmp/a") 4 1 none none
    let bad := Op.startLocal env (demoSite "/tmp/b") 0 1 none none
    framesDir "/tmp" demoSession = some "/tmp" ∧
    framesDir "/tmp" (session "/tmp" demoSession [start, .preprocess true]) = some "/tmp/a" ∧
    framesDir "/tmp" (session "/tmp" demoSession [start, .preprocess true, .removed "/tmp/a"]) = none ∧
    framesDir "/tmp" (session "/tmp" demoSession [bad]) = none ∧
    framesDir "/tmp" (session "/tmp" demoSession [.configure "/tmp/c" [] true]) = some "/tmp/c" ∧
    framesDir "/tmp" (session "/tmp" demoSession [.configure "/tmp/c" [] false, .preprocess true]) = none := by
  decide +kernel

/-! ### C197 -/

/-- **C197** What `preprocess_data` does to the configuration of dask: a call that is rejected by its checks changes nothing;
an accepted one changes the one setting `array.slicing.split_large_chunks`; neither touches clusters, directories or
checkpoints.  Missing: that setting (`C197_setting_stays_fails`). -/
theorem C197_one_setting_partial (sys : String) (s : Session) :
    sessionStep sys s (.preprocess false) = s ∧
    (∀ k, k ≠ "array.slicing.split_large_chunks" →
      (sessionStep sys s (.preprocess true)).world.cfg k = s.world.cfg k) ∧
    (sessionStep sys s (.preprocess true)).world.running = s.world.running ∧
    (sessionStep sys s (.preprocess true)).world.log = s.world.log ∧
    (sessionStep sys s (.preprocess true)).dirs = s.dirs ∧ (sessionStep sys s (.preprocess true)).files = s.files := by
  refine ⟨rfl, fun k hk => ?_, rfl, rfl, rfl, rfl⟩
  have : lastSetting splitLarge k = none := by
    rw [lastSetting_none]; intro u hu; simp [splitLarge] at hu; exact hk hu.1
  simp only [sessionStep, if_true, daskSet_apply, this]
  rfl

/-- Operations that leave `array.slicing.split_large_chunks` alone. -/
def KeepsSplitting : Op → Prop
  | .removed _ | .preprocess _ | .checkpoint _ => True
  | .userSet kv => ∀ u, ("array.slicing.split_large_chunks", u) ∉ kv
  | _ => False

/-- **C197** negative: the setting is not restored.  Whatever it was before, the user's own value or the `False` with which the
package configures its clusters, it is `True` after an accepted call and stays so until somebody sets it again. -/
theorem C197_setting_stays_fails (sys : String) (s : Session) (before after : List Op)
    (ha : ∀ o ∈ after, KeepsSplitting o) :
    (session sys s (before ++ .preprocess true :: after)).world.cfg "array.slicing.split_large_chunks" = some "True" := by
  rw [session_append, session_cons]
  have h0 : (sessionStep sys (session sys s before) (.preprocess true)).world.cfg "array.slicing.split_large_chunks" = some "True" := by
    simp only [sessionStep, if_true, daskSet_apply,
      show lastSetting splitLarge "array.slicing.split_large_chunks" = some "True" from by decide +kernel]
    rfl
  generalize sessionStep sys (session sys s before) (.preprocess true) = s' at h0
  induction after generalizing s' with
  | nil => exact h0
  | cons o ops ih =>
    rw [session_cons]
    apply ih (fun o ho => ha o (by simp [ho]))
    have hk := ha o (by simp)
    cases o with
    | preprocess a =>
      cases a
      · exact h0
      · simp only [sessionStep, if_true, daskSet_apply,
          show lastSetting splitLarge "array.slicing.split_large_chunks" = some "True" from by decide +kernel]
        rfl
    | userSet kv => simp only [sessionStep, daskSet_apply, lastSetting_none.2 hk]; exact h0
    | removed => exact h0
    | checkpoint => exact h0
    | startLocal => exact hk.elim
    | startDistributed => exact hk.elim
    | configure => exact hk.elim

/-- **C197** negative: so the configuration of a session depends on the order of two calls: a local cluster started after
`preprocess_data` has the setting off, one started before it has it on. -/
theorem C197_order_matters_fails (sys : String) (s : Session) (env : LogEnv) (site : Site) (hs : site.scratchOk = true)
    (n t : Nat) (v q : Option Bool) :
    (session sys s [.preprocess true, .startLocal env site n t v q]).world.cfg "array.slicing.split_large_chunks" = some "False" ∧
    (session sys s [.startLocal env site n t v q, .preprocess true]).world.cfg "array.slicing.split_large_chunks" = some "True" :=
  ⟨C106_user_settings_replaced_fails env site hs n t v q _ _ _ (by decide +kernel),
   C197_setting_stays_fails sys s [.startLocal env site n t v q] [] (by simp)⟩

/-- A user who turned splitting off finds it on. -/
example : let s : Session := session "/tmp" demoSession [.userSet [("array.slicing.split_large_chunks", "False")], .preprocess true, .checkpoint "x"]
    s.world.cfg "array.slicing.split_large_chunks" = some "True" := by decide +kernel

end MarEx.Props
