import Verif.Model.Steps
import Verif.Props.Preprocess
import Verif.Props.Support
/-! C73 (the recorded steps tell the methods), C177 (advice on installing packages). -/
namespace MarEx.Props
open MarEx Spec

/-- The first two letters of each step. -/
def initials (l : List String) : List (List Char) := l.map fun t => t.toList.take 2

/-- The initials depend on the methods only. -/
def signature (a e : String) (std : Bool) : List (List Char) :=
  (if a = "detrend_harmonic" then ['R', 'e'] :: (if std then [['N', 'o']] else [])
    else if a = "shifting_baseline" then [['R', 'o'], ['S', 'm']]
    else if a = "fixed_baseline" then [['D', 'a']]
    else if a = "detrend_fixed_baseline" then [['R', 'e'], ['D', 'a']] else []) ++
  (if e = "global_extreme" then [['G', 'l']] else if e = "hobday_extreme" then [['D', 'a']] else [])

theorem initials_append (l m : List String) : initials (l ++ m) = initials l ++ initials m := by simp [initials]

theorem initials_steps (a e : String) (std : Bool) (os : List Int) (y s : Nat) (d p : Option Int) :
    initials (preprocessingSteps a e std os y s d p) = signature a e std := by
  unfold preprocessingSteps signature
  rw [initials_append]
  congr 1
  · split
    · cases std <;> simp [initials, String.toList_append]
    · split
      · simp [initials, String.toList_append]
      · split
        · simp [initials]
        · split <;> simp [initials, String.toList_append]
  · split
    · simp [initials]
    · split
      · cases p <;> simp [initials, String.toList_append]
      · simp [initials]

theorem intText_chars (z : Int) : ∀ c ∈ (toString z).toList, c ≠ ' ' ∧ c ≠ ',' ∧ c ≠ ']' ∧ c ≠ 'N' := by
  have hn : ∀ n : Nat, ∀ c ∈ n.repr.toList, c ≠ ' ' ∧ c ≠ ',' ∧ c ≠ ']' ∧ c ≠ 'N' := by
    intro n c hc
    rw [Nat.toList_repr] at hc
    have := Nat.isDigit_of_mem_toDigits (by decide) (by decide) hc
    refine ⟨?_, ?_, ?_, ?_⟩ <;> rintro rfl <;> revert this <;> decide
  intro c hc
  rw [Int.toString_eq_repr, Int.repr_eq_if] at hc
  split at hc
  · exact hn _ c hc
  · rw [String.toList_append, List.mem_append] at hc
    rcases hc with hc | hc
    · have : c = '-' := by simpa using hc
      subst this; decide
    · exact hn _ c hc

theorem natText_inj {m n : Nat} (h : toString m = toString n) : m = n := by
  have := congrArg (fun t : String => Nat.ofDigitChars 10 t.toList 0) h
  simpa only [Nat.toString_eq_repr, Nat.toList_repr, Nat.ofDigitChars_ten_toDigits] using this

theorem natText_no_minus (n : Nat) : '-' ∉ n.repr.toList := by
  intro hc
  rw [Nat.toList_repr] at hc
  have := Nat.isDigit_of_mem_toDigits (by decide) (by decide) hc
  revert this; decide

theorem intText_inj {m n : Int} (h : toString m = toString n) : m = n := by
  rw [Int.toString_eq_repr, Int.toString_eq_repr, Int.repr_eq_if, Int.repr_eq_if] at h
  split at h <;> split at h
  · have := natText_inj (by simpa only [Nat.toString_eq_repr] using h)
    omega
  · exact absurd (by rw [h, String.toList_append]; simp) (natText_no_minus m.toNat)
  · exact absurd (by rw [← h, String.toList_append]; simp) (natText_no_minus n.toNat)
  · have h2 := congrArg String.toList h
    rw [String.toList_append, String.toList_append] at h2
    have h3 := String.toList_injective (List.append_cancel_left h2)
    have := natText_inj (by simpa only [Nat.toString_eq_repr] using h3)
    omega

/-- Cutting a text at the first letter that its first part cannot contain. -/
theorem cut_eq {P : Char → Prop} {x y r s : List Char} {c d : Char} (hx : ∀ a ∈ x, P a) (hy : ∀ a ∈ y, P a) (hc : ¬ P c) (hd : ¬ P d)
    (h : x ++ c :: r = y ++ d :: s) : x = y ∧ c :: r = d :: s := by
  induction x generalizing y with
  | nil =>
    cases y with
    | nil => exact ⟨rfl, h⟩
    | cons b y => injection h with h1 h2; exact absurd (h1 ▸ hy b List.mem_cons_self) hc
  | cons a x ih =>
    cases y with
    | nil => injection h with h1 h2; exact absurd (h1 ▸ hx a List.mem_cons_self) hd
    | cons b y =>
      injection h with h1 h2
      obtain ⟨h3, h4⟩ := ih (fun z hz => hx z (List.mem_cons_of_mem _ hz)) (fun z hz => hy z (List.mem_cons_of_mem _ hz)) h2
      exact ⟨by rw [h1, h3], h4⟩

/-- The text of the entries after the first. -/
def tailText : List Int → List Char
  | [] => [']']
  | z :: l => ',' :: ' ' :: ((toString z).toList ++ tailText l)

theorem tailText_cons (l : List Int) : ∃ c r, tailText l = c :: r ∧ (c = ',' ∨ c = ']') := by
  cases l with
  | nil => exact ⟨_, _, rfl, .inr rfl⟩
  | cons z l => exact ⟨_, _, rfl, .inl rfl⟩

theorem foldl_text (l : List Int) (t : String) :
    ((l.foldl (fun a r => a ++ ", " ++ toString r) t).push ']').toList = t.toList ++ tailText l := by
  induction l generalizing t with
  | nil => simp [tailText]
  | cons z l ih => rw [List.foldl_cons, ih]; simp [tailText, String.toList_append]

theorem ordersText_eq (z : Int) (l : List Int) : (toString (z :: l)).toList = '[' :: ((toString z).toList ++ tailText l) := by
  cases l with
  | nil => simp [toString, List.toString, tailText, String.toList_append]
  | cons y l =>
    change (List.toString (z :: y :: l)).toList = _
    unfold List.toString
    rw [foldl_text]
    simp [String.toList_append]

theorem entry_cut {z y : Int} {l m : List Int} (h : (toString z).toList ++ tailText l = (toString y).toList ++ tailText m) : z = y ∧ tailText l = tailText m := by
  obtain ⟨c, r, hl, hc⟩ := tailText_cons l
  obtain ⟨d, s, hm, hd⟩ := tailText_cons m
  rw [hl, hm] at h ⊢
  obtain ⟨h1, h2⟩ := cut_eq (P := fun a => a ≠ ',' ∧ a ≠ ']') (fun a ha => ⟨(intText_chars z a ha).2.1, (intText_chars z a ha).2.2.1⟩)
    (fun a ha => ⟨(intText_chars y a ha).2.1, (intText_chars y a ha).2.2.1⟩) (by rcases hc with rfl | rfl <;> simp) (by rcases hd with rfl | rfl <;> simp) h
  exact ⟨intText_inj (String.toList_injective h1), h2⟩

theorem tailText_inj {l m : List Int} (h : tailText l = tailText m) : l = m := by
  induction l generalizing m with
  | nil => cases m with
    | nil => rfl
    | cons y m => simp [tailText] at h
  | cons z l ih => cases m with
    | nil => simp [tailText] at h
    | cons y m =>
      simp only [tailText, List.cons.injEq, true_and] at h
      obtain ⟨h1, h2⟩ := entry_cut h
      rw [h1, ih h2]

theorem ordersText_inj {l m : List Int} (h : toString l = toString m) : l = m := by
  have h := congrArg String.toList h
  have hnil : (toString ([] : List Int)).toList = ['[', ']'] := by simp [toString, List.toString]
  have hne : ∀ (z : Int) (l : List Int), (toString z).toList ++ tailText l ≠ [']'] := by
    intro z l h
    have : ∀ c ∈ (toString z).toList, c = ']' := by
      intro c hc
      have : c ∈ [']'] := h ▸ List.mem_append_left _ hc
      simpa using this
    cases hz : (toString z).toList with
    | nil =>
      rw [Int.toString_eq_repr, Int.repr_eq_if] at hz
      split at hz
      · rw [Nat.toList_repr] at hz; exact Nat.toDigits_ne_nil hz
      · simp [String.toList_append] at hz
    | cons c r => exact (intText_chars z c (by rw [hz]; simp)).2.2.1 (this c (by rw [hz]; simp))
  cases l with
  | nil => cases m with
    | nil => rfl
    | cons y m => rw [hnil, ordersText_eq] at h; injection h with _ h; exact absurd h.symm (hne y m)
  | cons z l => cases m with
    | nil => rw [hnil, ordersText_eq] at h; injection h with _ h; exact absurd h (hne z l)
    | cons y m =>
      rw [ordersText_eq, ordersText_eq] at h
      injection h with _ h
      obtain ⟨h1, h2⟩ := entry_cut h
      rw [h1, tailText_inj h2]

theorem append_text_cancel {a x y b : String} (h : a ++ x ++ b = a ++ y ++ b) : x = y := by
  have h := congrArg String.toList h
  simp only [String.toList_append, List.append_assoc] at h
  exact String.toList_injective (List.append_cancel_right (List.append_cancel_left h))

theorem methods_recorded (a a' e e' : String) (std std' : Bool) (os os' : List Int) (y y' s s' : Nat) (d d' p p' : Option Int)
    (ha : a ∈ ["detrend_harmonic", "shifting_baseline", "fixed_baseline", "detrend_fixed_baseline"])
    (ha' : a' ∈ ["detrend_harmonic", "shifting_baseline", "fixed_baseline", "detrend_fixed_baseline"])
    (he : e ∈ ["global_extreme", "hobday_extreme"]) (he' : e' ∈ ["global_extreme", "hobday_extreme"])
    (h : preprocessingSteps a e std os y s d p = preprocessingSteps a' e' std' os' y' s' d' p') :
    a = a' ∧ e = e' ∧ (a = "detrend_harmonic" → std = std') := by
  have hk : signature a e std = signature a' e' std' := by rw [← initials_steps a e std os y s d p, h, initials_steps]
  clear h
  revert hk
  simp only [List.mem_cons, List.not_mem_nil, or_false] at ha ha' he he'
  rcases ha with rfl | rfl | rfl | rfl <;> rcases ha' with rfl | rfl | rfl | rfl <;> rcases he with rfl | rfl <;> rcases he' with rfl | rfl <;>
    cases std <;> cases std' <;> decide +kernel

theorem daysText_cut {d d' : Option Int} {r s : List Char}
    (h : (match d with | some d => toString d | none => "None").toList ++ ' ' :: r = (match d' with | some d => toString d | none => "None").toList ++ ' ' :: s) :
    d = d' ∧ r = s := by
  have hP : ∀ d : Option Int, ∀ a ∈ (match d with | some d => toString d | none => "None").toList, a ≠ ' ' := by
    intro d a ha
    cases d with
    | none => simp at ha; rcases ha with rfl | rfl | rfl | rfl <;> decide
    | some z => exact (intText_chars z a ha).1
  obtain ⟨h1, h2⟩ := cut_eq (P := fun a => a ≠ ' ') (hP d) (hP d') (by simp) (by simp) h
  refine ⟨?_, by injection h2⟩
  cases d with
  | none => cases d' with
    | none => rfl
    | some z => exact absurd rfl (intText_chars z 'N' (by rw [← h1]; simp)).2.2.2
  | some y => cases d' with
    | none => exact absurd rfl (intText_chars y 'N' (by rw [h1]; simp)).2.2.2
    | some z => rw [intText_inj (String.toList_injective h1)]

/-- C73: the steps recorded with the result determine how it was made.  Two accepted calls that record the same steps used the same anomaly method and the same
extreme method; with harmonic detrending the same polynomial orders and the same choice on standardising; with a shifting baseline the same number of years and the
same smoothing window; with detrending before a fixed baseline the same orders; with day-of-year thresholds the same window of days and the same given spatial window
(`C73_default_window_not_recorded_fails`: a defaulted one is not recorded). -/
theorem C73_steps_tell_the_call (a a' e e' : String) (std std' : Bool) (os os' : List Int) (y y' s s' : Nat) (d d' p p' : Option Int)
    (ha : a ∈ ["detrend_harmonic", "shifting_baseline", "fixed_baseline", "detrend_fixed_baseline"])
    (ha' : a' ∈ ["detrend_harmonic", "shifting_baseline", "fixed_baseline", "detrend_fixed_baseline"])
    (he : e ∈ ["global_extreme", "hobday_extreme"]) (he' : e' ∈ ["global_extreme", "hobday_extreme"])
    (h : preprocessingSteps a e std os y s d p = preprocessingSteps a' e' std' os' y' s' d' p') :
    a = a' ∧ e = e' ∧
    (a = "detrend_harmonic" → std = std' ∧ os = os') ∧
    (a = "shifting_baseline" → y = y' ∧ s = s') ∧
    (a = "detrend_fixed_baseline" → os = os') ∧
    (e = "hobday_extreme" → d = d' ∧ p = p') := by
  obtain ⟨rfl, rfl, hstd⟩ := methods_recorded a a' e e' std std' os os' y y' s s' d d' p p' ha ha' he he' h
  unfold preprocessingSteps at h
  have h' := List.append_inj' h (by
    simp only [List.mem_cons, List.not_mem_nil, or_false] at he
    rcases he with rfl | rfl
    · simp
    · cases p <;> cases p' <;> simp)
  obtain ⟨hA, hE⟩ := h'
  refine ⟨rfl, rfl, fun hm => ⟨hstd hm, ?_⟩, fun hm => ?_, fun hm => ?_, fun hm => ?_⟩
  · subst hm
    rw [if_pos rfl, if_pos rfl] at hA
    injection hA with hA _
    exact ordersText_inj (append_text_cancel hA)
  · subst hm
    simp only [String.reduceEq, reduceIte] at hA
    injection hA with h1 h2
    injection h2 with h2 _
    exact ⟨natText_inj (append_text_cancel h1), natText_inj (append_text_cancel h2)⟩
  · subst hm
    simp only [String.reduceEq, reduceIte] at hA
    injection hA with h1 _
    have h1 := congrArg String.toList h1
    simp only [String.toList_append] at h1
    exact ordersText_inj (String.toList_injective (List.append_cancel_left h1))
  · subst hm
    simp only [String.reduceEq, reduceIte] at hE
    have hw : " day window".toList = ' ' :: "day window".toList := by decide +kernel
    have hv : " day window & ".toList = ' ' :: ("day window".toList ++ " & ".toList) := by decide +kernel
    cases p with
    | none => cases p' with
      | none =>
        injection hE with h1 _
        have h1 := congrArg String.toList h1
        simp only [String.toList_append, List.append_assoc, hw, hv, List.cons_append] at h1
        exact ⟨(daysText_cut (List.append_cancel_left h1)).1, rfl⟩
      | some q =>
        exfalso
        injection hE with h1 _
        have h1 := congrArg String.toList h1
        simp only [String.toList_append, List.append_assoc, hw, hv, List.cons_append] at h1
        have := (daysText_cut (List.append_cancel_left h1)).2
        simp at this
    | some q => cases p' with
      | none =>
        exfalso
        injection hE with h1 _
        have h1 := congrArg String.toList h1
        simp only [String.toList_append, List.append_assoc, hw, hv, List.cons_append] at h1
        have := (daysText_cut (List.append_cancel_left h1)).2
        simp at this
      | some q' =>
        injection hE with h1 _
        have h1 := congrArg String.toList h1
        simp only [String.toList_append, List.append_assoc, hw, hv, List.cons_append] at h1
        obtain ⟨h2, h3⟩ := daysText_cut (List.append_cancel_left h1)
        have h4 := String.toList_injective (List.append_cancel_right (List.append_cancel_left (List.append_cancel_left h3)))
        exact ⟨h2, by rw [intText_inj h4]⟩

/-- A call whose record can be read. -/
example : preprocessingSteps "shifting_baseline" "hobday_extreme" false [1] 15 21 (some 11) (some 5) =
    ["Rolling climatology using 15 years", "Smoothed with 21-day window", "Day-of-year thresholds with 11 day window & 5 spatial neighbours"] := by decide +kernel

/-! ### C177: advice on installing packages -/

/-- C177, partial: when a single package is missing, the advised command installs it, whatever its name.  Missing: several packages
(`C177_several_fails`). -/
theorem C177_single_partial (d : String) : ∃ c, installAdvice [d] = some c ∧ d ∈ installs c := by
  refine ⟨installCommand d, rfl, ?_⟩
  unfold installCommand
  split
  · rename_i h; rcases h with rfl | rfl <;> decide +kernel
  · split
    · rename_i h; subst h; decide +kernel
    · split
      · rename_i h; subst h; decide +kernel
      · split
        · rename_i h; rcases h with rfl | rfl | rfl | rfl <;> decide +kernel
        · simp [installs]

example : installAdvice ["cmocean"] = some (.extra "plotting") := by decide +kernel

/-- C177 fails for several packages: the one command advised for any two or more missing packages does not install those outside the extra `full` and the
requirements of marEx.  That is so for psutil, which marEx tracks, and for every name marEx does not know, which are the names `require_dependencies` reports
in practice (`C47_unknown_missing_partial`). -/
theorem C177_several_fails (missing : List String) (h2 : 2 ≤ missing.length) (d : String) (hd : d ∈ missing)
    (h : d = "psutil" ∨ (d ∉ ["jax", "jaxlib", "dask_jobqueue", "psutil", "matplotlib", "cartopy", "seaborn", "cmocean", "pillow"] ∧
      d ∉ required ∧ d ≠ "ffmpeg")) :
    ∃ c, installAdvice missing = some c ∧ d ∉ installs c := by
  refine ⟨.extra "full", ?_, ?_⟩
  · match missing, h2 with
    | _ :: _ :: _, _ => rfl
  · have hf : installs (.extra "full") = ["jax", "jaxlib", "dask_jobqueue", "seaborn", "cmocean", "ffmpeg"] ++ required := by decide +kernel
    rw [hf]
    rcases h with rfl | ⟨h1, h3, h4⟩
    · decide +kernel
    · intro hm
      rcases List.mem_append.mp hm with hm | hm
      · simp only [List.mem_cons, List.not_mem_nil, or_false, not_or] at h1 hm
        rcases hm with h | h | h | h | h | h
        · exact h1.1 h
        · exact h1.2.1 h
        · exact h1.2.2.1 h
        · exact h1.2.2.2.2.2.2.1 h
        · exact h1.2.2.2.2.2.2.2.1 h
        · exact h4 h
      · exact h3 hm

/-- Two packages that `require_dependencies` reports in every environment, with advice that installs neither. -/
example (installed : String → Bool) : requireDependencies installed ["zarr", "healpy"] = .error ["zarr", "healpy"] ∧
    ∃ c, installAdvice ["zarr", "healpy"] = some c ∧ "zarr" ∉ installs c ∧ "healpy" ∉ installs c := by
  refine ⟨?_, .extra "full", rfl, by decide +kernel, by decide +kernel⟩
  simp [requireDependencies, hasDependency_eq, trackedDeps]

end MarEx.Props
