import Verif.Lemmas.TimeGaps
/-! # C01, C02: temporal gap filling -/
namespace MarEx.Props
open MarEx Spec

variable {ι : Type}

/-- **C01.** After temporal gap filling with an even `T_fill` the record has the same length, and a cell is
extreme at a step iff it was extreme there, or the step lies in a gap between two extreme steps of that cell
that is at most `T_fill` steps long. -/
theorem C01_time_gaps_filled_exactly (Tfill : Nat) (heven : Tfill % 2 = 0) (fs : Frames ι) :
    (closeTimeGaps Tfill fs).length = fs.length ∧
    ∀ (t : Nat) (c : ι), ExtremeAt (closeTimeGaps Tfill fs) t c ↔
      (ExtremeAt fs t c ∨ InGap fs Tfill t c) := by
  refine ⟨length_closeTimeGaps _ _, fun t c => ?_⟩
  have e : Tfill = 2 * (Tfill / 2) := by omega
  rw [e, extremeAt_close_window, ← window_iff_between]
  constructor
  · exact fun h => h.2
  · intro h
    refine ⟨?_, h⟩
    rw [window_iff_between] at h
    rcases h with h | ⟨a, b, _, h2, _, h4, _⟩
    · exact extremeAt_lt h
    · have := extremeAt_lt h4; omega

/-- **C01**, first and last steps: nothing is added before the first or after the last extreme step of a cell. -/
theorem C01_no_filling_at_record_ends (Tfill : Nat) (heven : Tfill % 2 = 0) (fs : Frames ι) (t : Nat) (c : ι)
    (h : (∀ s, s ≤ t → ¬ ExtremeAt fs s c) ∨ (∀ s, t ≤ s → ¬ ExtremeAt fs s c)) :
    ¬ ExtremeAt (closeTimeGaps Tfill fs) t c := by
  rw [(C01_time_gaps_filled_exactly Tfill heven fs).2]
  rintro (h1 | ⟨a, b, ha, hb, hea, heb, _⟩)
  · rcases h with h | h
    · exact h t (by omega) h1
    · exact h t (by omega) h1
  · rcases h with h | h
    · exact h a (by omega) hea
    · exact h b (by omega) heb

/-- **C01**, `T_fill = 0` is the identity. -/
theorem C01_zero_is_identity (fillHoles : Nat → (ι → Bool) → (ι → Bool)) (R : Nat) (fs : Frames ι) :
    closeTimeGaps 0 fs = fs ∧ fillTimeGaps fillHoles 0 R fs = fs := by
  simp [closeTimeGaps, fillTimeGaps]

/-- A record with one cell given by its values in time. -/
def series (bs : List Bool) : Frames Unit := bs.map (fun b _ => b)

-- T_fill = 2 fills the gap of two steps, not the gap of three steps, and not the ends.
example : ((closeTimeGaps 2 (series [false, true, false, false, true, false, false, false, true, false])).map (· ()))
    = [false, true, true, true, true, false, false, false, true, false] := by decide

/-- **C02**, idempotence: filling twice is filling once. -/
theorem C02_idempotent (Tfill : Nat) (heven : Tfill % 2 = 0) (fs : Frames ι) :
    closeTimeGaps Tfill (closeTimeGaps Tfill fs) = closeTimeGaps Tfill fs := by
  have hext : ∀ (gs hs : Frames ι), gs.length = hs.length →
      (∀ t c, ExtremeAt gs t c ↔ ExtremeAt hs t c) → gs = hs := by
    intro gs hs hl h
    apply List.ext_getElem hl
    intro t h1 h2
    funext c
    have := h t c
    simp only [ExtremeAt, List.getElem?_eq_getElem h1, List.getElem?_eq_getElem h2,
      Option.some.injEq, exists_eq_left'] at this
    cases hg : gs[t] c <;> cases hh : hs[t] c <;> simp_all
  apply hext
  · simp [length_closeTimeGaps]
  · intro t c
    rw [(C01_time_gaps_filled_exactly Tfill heven (closeTimeGaps Tfill fs)).2]
    constructor
    · rintro (h | ⟨a, b, ha, hb, hea, heb, hno, hlen⟩)
      · exact h
      · -- a gap of the filled record is a gap of the original record
        have hsub : ∀ s, ExtremeAt fs s c → ExtremeAt (closeTimeGaps Tfill fs) s c := fun s hs =>
          ((C01_time_gaps_filled_exactly Tfill heven fs).2 s c).2 (Or.inl hs)
        have hno' : ∀ s, a < s → s < b → ¬ ExtremeAt fs s c := fun s h1 h2 h3 => hno s h1 h2 (hsub s h3)
        rw [(C01_time_gaps_filled_exactly Tfill heven fs).2] at hea heb
        rw [(C01_time_gaps_filled_exactly Tfill heven fs).2]
        right
        have hea' : ExtremeAt fs a c := by
          rcases hea with h | ⟨a', b', h1, h2, h3, h4, h5, h6⟩
          · exact h
          · exfalso
            by_cases hb' : b' < b
            · exact hno b' (by omega) hb' (hsub _ h4)
            · exact hno t ha hb (((C01_time_gaps_filled_exactly Tfill heven fs).2 t c).2
                (Or.inr ⟨a', b', by omega, by omega, h3, h4, h5, h6⟩))
        have heb' : ExtremeAt fs b c := by
          rcases heb with h | ⟨a', b', h1, h2, h3, h4, h5, h6⟩
          · exact h
          · exfalso
            by_cases hb' : a < a'
            · exact hno a' hb' (by omega) (hsub _ h3)
            · exact hno t ha hb (((C01_time_gaps_filled_exactly Tfill heven fs).2 t c).2
                (Or.inr ⟨a', b', by omega, by omega, h3, h4, h5, h6⟩))
        exact ⟨a, b, ha, hb, hea', heb', hno', hlen⟩
    · exact Or.inl

/-- **C02**, monotone in the input: more extreme cells in, no fewer out; and extensive: no extreme cell is lost. -/
theorem C02_monotone_extensive (Tfill : Nat) (heven : Tfill % 2 = 0) (fs gs : Frames ι)
    (hlen : fs.length = gs.length) (hsub : ∀ t c, ExtremeAt fs t c → ExtremeAt gs t c) (t : Nat) (c : ι) :
    (ExtremeAt fs t c → ExtremeAt (closeTimeGaps Tfill fs) t c) ∧
    (ExtremeAt (closeTimeGaps Tfill fs) t c → ExtremeAt (closeTimeGaps Tfill gs) t c) := by
  constructor
  · intro h; exact ((C01_time_gaps_filled_exactly Tfill heven fs).2 t c).2 (Or.inl h)
  · have e : Tfill = 2 * (Tfill / 2) := by omega
    rw [e, extremeAt_close_window, extremeAt_close_window]
    rintro ⟨h1, h2⟩
    refine ⟨by omega, fun s hs1 hs2 => ?_⟩
    obtain ⟨m, a, b, hm⟩ := h2 s hs1 hs2
    exact ⟨m, a, b, hsub _ _ hm⟩

/-- **C02**, a larger `T_fill` never gives fewer extreme cells. -/
theorem C02_monotone_in_Tfill (T T' : Nat) (hT : T % 2 = 0) (hT' : T' % 2 = 0) (hle : T ≤ T')
    (fs : Frames ι) (t : Nat) (c : ι) (h : ExtremeAt (closeTimeGaps T fs) t c) :
    ExtremeAt (closeTimeGaps T' fs) t c := by
  rw [(C01_time_gaps_filled_exactly _ hT fs).2] at h
  rw [(C01_time_gaps_filled_exactly _ hT' fs).2]
  rcases h with h | ⟨a, b, h1, h2, h3, h4, h5, h6⟩
  · exact Or.inl h
  · exact Or.inr ⟨a, b, h1, h2, h3, h4, h5, by omega⟩

-- non-vacuity of the hypotheses of `C02_monotone_extensive`: a strict inclusion of two records
example : (series [true, false, false]).length = (series [true, false, true]).length ∧
    (closeTimeGaps 2 (series [true, false, false])).map (· ()) = [true, false, false] ∧
    (closeTimeGaps 2 (series [true, false, true])).map (· ()) = [true, true, true] := by decide

end MarEx.Props
