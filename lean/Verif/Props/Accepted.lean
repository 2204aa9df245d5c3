import Verif.Props.Options

/-! C86, C87: what holds of all parameters the option loop can produce. -/

namespace SatSky.Props

open SatSky Spec Dates Opts

/-- What every switch and every accepted value preserves holds after the loop. -/
theorem steps_inv {L : Lib} {argv : List CString} (P : Params → Prop)
    (hs : ∀ c p, isSwitch c = true → P p → P (setSwitch c p))
    (hv : ∀ c v a p p', setValue L c v a p = .ok p' → P p → P p') (n : Nat) :
    ∀ u p, P u.p → steps L argv n u = .done p → P p := by
  induction n with
  | zero => intro u p _ h; simp [steps] at h
  | succ n ih =>
    intro u p hp h
    rw [steps] at h
    cases hst : step L argv u with
    | run v =>
      rw [hst] at h
      refine ih v p ?_ h
      unfold step at hst
      split at hst
      · cases hb : body L argv u with
        | stop e => rw [hb] at hst; simp at hst
        | ub => rw [hb] at hst; simp at hst
        | ok w =>
          rw [hb] at hst
          simp only [Next.run.injEq] at hst
          subst hst
          unfold body at hb
          cases ha : arg argv u.i with
          | none => rw [ha] at hb; simp at hb
          | some a =>
            rw [ha] at hb
            dsimp only at hb
            by_cases h0 : rd a 0 = some 45
            · rw [if_pos h0] at hb
              cases h1 : rd a 1 with
              | none => rw [h1] at hb; simp at hb
              | some opt =>
                cases h2 : rd a 2 with
                | none => rw [h1, h2] at hb; simp at hb
                | some c2 =>
                  rw [h1, h2] at hb
                  dsimp only at hb
                  by_cases hh : opt = 104
                  · rw [if_pos hh] at hb; simp at hb
                  · rw [if_neg hh] at hb
                    by_cases hsw : isSwitch opt = true
                    · rw [if_pos hsw] at hb
                      simp only [Res.ok.injEq] at hb
                      subst hb
                      exact hs opt u.p hsw hp
                    · rw [if_neg hsw] at hb
                      split at hb
                      · simp at hb
                      · split at hb
                        · rename_i p' hval
                          simp only [Res.ok.injEq] at hb
                          subst hb
                          exact hv _ _ _ _ _ hval hp
                        · simp at hb
                        · simp at hb
            · rw [if_neg h0] at hb
              simp only [Res.ok.injEq] at hb
              subst hb
              exact hp
      · simp at hst
    | done q =>
      rw [hst] at h
      simp only [Next.done.injEq] at h
      subst h
      unfold step at hst
      split at hst
      · split at hst <;> simp at hst
      · simp only [Next.done.injEq] at hst
        rwa [← hst]
    | stop e => rw [hst] at h; simp at h
    | ub => rw [hst] at h; simp at h

/-- The twelve ways a value is accepted. -/
theorem setValue_ok {L : Lib} {c : CChar} {v a : CString} {p p' : Params} (h : setValue L c v a p = .ok p') :
    (∃ lo hi, lo ≤ hi ∧ p' = { p with altMin := lo, altMax := hi, altRange := true, geoloc := true }) ∨
    (∃ d m, p' = { p with date := d, mjd := m }) ∨
    (∃ d, d.length ≤ 127 ∧ p' = { p with tlePath := d, defDir := false }) ∨
    (∃ d, d.length ≤ 11 ∧ p' = { p with intlDesig := d, singleI := true, altRange := false, inRegion := false }) ∨
    (∃ lat lon ht, (-90 ≤ lat ∧ lat ≤ 90) ∧ p' = { p with lat := lat, lon := lon, ht := ht, inGeopos := true }) ∨
    (∃ n, (n = p.maxSats ∨ inInt n) ∧ p' = { p with maxSats := n }) ∨
    (∃ ra dec, (0 ≤ ra ∧ ra ≤ 360) ∧ (-90 ≤ dec ∧ dec ≤ 90) ∧ p' = { p with ra := ra, dec := dec, inRegion := true }) ∨
    (∃ r, p' = { p with radius := r }) ∨
    (∃ n, inInt n ∧ p' = { p with noradN := n, singleN := true, altRange := false, inRegion := false }) ∨
    (∃ d, d.length ≤ 23 ∧ p' = { p with satname := d, nameFilter := true }) ∨
    (∃ n, inInt n ∧ p' = { p with deltaTime := n }) := by
  have len : ∀ {n : Nat} {s d : CString}, copyTo n s = some d → d.length + 1 ≤ n := by
    intro n s d h
    unfold copyTo at h
    split_ifs at h with hf
    rw [← Option.some.inj h]
    unfold fits at hf
    simpa using hf
  by_cases c1 : c = 97
  · subst c1
    rw [sv_a] at h
    dsimp only at h
    left
    generalize scan2 L v p.altMin p.altMax = x at h
    by_cases hx : x.2 < x.1
    · rw [if_pos hx] at h
      exact ⟨x.2, x.1, hx.le, (Res.ok.inj h).symm⟩
    · rw [if_neg hx] at h
      exact ⟨x.1, x.2, not_lt.mp hx, (Res.ok.inj h).symm⟩
  by_cases c2 : c = 100
  · subst c2
    rw [sv_d] at h
    cases hv : copyTo 24 v with
    | none => rw [hv] at h; simp at h
    | some d => rw [hv] at h; exact Or.inr (Or.inl ⟨_, _, (Res.ok.inj h).symm⟩)
  by_cases c3 : c = 68
  · subst c3
    rw [sv_D] at h
    cases hv : copyTo 128 v with
    | none => rw [hv] at h; simp at h
    | some d => rw [hv] at h; exact Or.inr (Or.inr (Or.inl ⟨d, by have := len hv; omega, (Res.ok.inj h).symm⟩))
  by_cases c4 : c = 105
  · subst c4
    rw [sv_i] at h
    cases hv : copyTo 12 v with
    | none => rw [hv] at h; simp at h
    | some d => rw [hv] at h; exact Or.inr (Or.inr (Or.inr (Or.inl ⟨d, by have := len hv; omega, (Res.ok.inj h).symm⟩)))
  by_cases c5 : c = 106
  · subst c5
    rw [sv_j] at h
    cases hv : optJ L.F (L.atof v) with
    | none => rw [hv] at h; simp at h
    | some w => rw [hv] at h; exact Or.inr (Or.inl ⟨w.date, w.mjd, (Res.ok.inj h).symm⟩)
  by_cases c6 : c = 108
  · subst c6
    rw [sv_l] at h
    dsimp only at h
    generalize scan3 L v p.lat p.lon p.ht = x at h
    by_cases hx : x.1 < -90 ∨ x.1 > 90
    · rw [if_pos hx] at h
      exact absurd h (errorExit_ne_ok _ _ _)
    · rw [if_neg hx] at h
      push Not at hx
      exact Or.inr (Or.inr (Or.inr (Or.inr (Or.inl ⟨x.1, _, x.2.2, hx, (Res.ok.inj h).symm⟩))))
  by_cases c7 : c = 110
  · subst c7
    rw [sv_n] at h
    cases hv : scanInt v p.maxSats with
    | none => rw [hv] at h; simp at h
    | some n =>
      rw [hv] at h
      refine Or.inr (Or.inr (Or.inr (Or.inr (Or.inr (Or.inl ⟨n, ?_, (Res.ok.inj h).symm⟩)))))
      unfold scanInt at hv
      split at hv
      · exact Or.inl (Option.some.inj hv).symm
      · unfold int32 at hv
        split_ifs at hv with hi
        rw [← Option.some.inj hv]
        exact Or.inr hi
  by_cases c8 : c = 112
  · subst c8
    rw [sv_p] at h
    dsimp only at h
    generalize scan2 L v p.ra p.dec = x at h
    by_cases hx : x.1 < 0 ∨ x.1 > 360
    · rw [if_pos hx] at h
      exact absurd h (errorExit_ne_ok _ _ _)
    · rw [if_neg hx] at h
      by_cases hy : x.2 < -90 ∨ x.2 > 90
      · rw [if_pos hy] at h
        exact absurd h (errorExit_ne_ok _ _ _)
      · rw [if_neg hy] at h
        push Not at hx hy
        exact Or.inr (Or.inr (Or.inr (Or.inr (Or.inr (Or.inr (Or.inl ⟨x.1, x.2, hx, hy, (Res.ok.inj h).symm⟩))))))
  by_cases c9 : c = 114
  · subst c9
    rw [sv_r] at h
    exact Or.inr (Or.inr (Or.inr (Or.inr (Or.inr (Or.inr (Or.inr (Or.inl ⟨_, (Res.ok.inj h).symm⟩)))))))
  by_cases c10 : c = 115
  · subst c10
    rw [sv_s] at h
    refine Or.inr (Or.inr (Or.inr (Or.inr (Or.inr (Or.inr (Or.inr (Or.inr (Or.inl ⟨_, ?_, (Res.ok.inj h).symm⟩))))))))
    unfold noradArg longToInt inInt
    dsimp only
    omega
  by_cases c11 : c = 83
  · subst c11
    rw [sv_S] at h
    cases hv : copyTo 24 v with
    | none => rw [hv] at h; simp at h
    | some d =>
      rw [hv] at h
      exact Or.inr (Or.inr (Or.inr (Or.inr (Or.inr (Or.inr (Or.inr (Or.inr (Or.inr (Or.inl ⟨d, by have := len hv; omega, (Res.ok.inj h).symm⟩)))))))))
  by_cases c12 : c = 116
  · subst c12
    rw [sv_t] at h
    cases hv : int32 (truncQ (L.atof v)) with
    | none => rw [hv] at h; simp at h
    | some n =>
      rw [hv] at h
      refine Or.inr (Or.inr (Or.inr (Or.inr (Or.inr (Or.inr (Or.inr (Or.inr (Or.inr (Or.inr ⟨n, ?_, (Res.ok.inj h).symm⟩)))))))))
      unfold int32 at hv
      split_ifs at hv with hi
      rw [← Option.some.inj hv]
      exact hi
  · unfold setValue at h
    simp only [if_neg c1, if_neg c2, if_neg c3, if_neg c4, if_neg c5, if_neg c6, if_neg c7, if_neg c8, if_neg c9, if_neg c10, if_neg c11,
      if_neg c12] at h
    exact absurd h (errorExit_ne_ok _ _ _)

/-- **C86**.  Whatever the command line, if a reference location (`-E`) or an altitude range (`-a`) is in force after the loop, the computation
of the location is requested: `geo` is never used without having been set. -/
theorem C86_location_requested {L : Lib} {argv : List CString} {p : Params} (h : Parses L argv p) :
    (p.geolocRef = true → p.geoloc = true) ∧ (p.altRange = true → p.geoloc = true) := by
  obtain ⟨n, h⟩ := h
  refine steps_inv (fun p => (p.geolocRef = true → p.geoloc = true) ∧ (p.altRange = true → p.geoloc = true)) ?_ ?_ n init p ?_ h
  · intro c p _ hp
    unfold setSwitch
    split_ifs
    · exact ⟨fun _ => rfl, fun _ => rfl⟩
    · exact ⟨fun _ => rfl, fun _ => rfl⟩
    all_goals exact hp
  · intro c v a p p' hv hp
    rcases setValue_ok hv with ⟨_, _, _, rfl⟩ | ⟨_, _, rfl⟩ | ⟨_, _, rfl⟩ | ⟨_, _, rfl⟩ | ⟨_, _, _, _, rfl⟩ | ⟨_, _, rfl⟩ | ⟨_, _, _, _, rfl⟩ |
      ⟨_, rfl⟩ | ⟨_, _, rfl⟩ | ⟨_, _, rfl⟩ | ⟨_, _, rfl⟩
    · exact ⟨fun _ => rfl, fun _ => rfl⟩
    · exact hp
    · exact hp
    · exact ⟨hp.1, fun h => by simp at h⟩
    · exact hp
    · exact hp
    · exact hp
    · exact hp
    · exact ⟨hp.1, fun h => by simp at h⟩
    · exact hp
    · exact hp
  · exact ⟨fun h => by simp [init] at h, fun h => by simp [init] at h⟩

/-- The parameters are in the documented ranges, the integers are `int`s and the texts fit their buffers. -/
def InRange (p : Params) : Prop :=
  (-90 ≤ p.lat ∧ p.lat ≤ 90) ∧ (0 ≤ p.ra ∧ p.ra ≤ 360) ∧ (-90 ≤ p.dec ∧ p.dec ≤ 90) ∧ p.altMin ≤ p.altMax ∧
    (inInt p.maxSats ∧ inInt p.noradN ∧ inInt p.deltaTime) ∧
    p.intlDesig.length ≤ 11 ∧ p.satname.length ≤ 23 ∧ p.tlePath.length ≤ 127

/-- **C87**.  Whatever the command line, if the loop ends regularly then latitude, declination and right ascension are in range, the altitude
range is ordered, and the texts fit their buffers. -/
theorem C87_accepted_in_range {L : Lib} {argv : List CString} {p : Params} (h : Parses L argv p) : InRange p := by
  obtain ⟨n, h⟩ := h
  refine steps_inv InRange ?_ ?_ n init p ?_ h
  · intro c p _ hp
    unfold setSwitch
    split_ifs <;> exact hp
  · intro c v a p p' hv hp
    obtain ⟨h1, h2, h3, h4, ⟨h5, h6, h7⟩, h8, h9, h10⟩ := hp
    rcases setValue_ok hv with ⟨_, _, k, rfl⟩ | ⟨_, _, rfl⟩ | ⟨_, k, rfl⟩ | ⟨_, k, rfl⟩ | ⟨_, _, _, k, rfl⟩ | ⟨_, k, rfl⟩ | ⟨_, _, k, l, rfl⟩ |
      ⟨_, rfl⟩ | ⟨_, k, rfl⟩ | ⟨_, k, rfl⟩ | ⟨_, k, rfl⟩
    · exact ⟨h1, h2, h3, k, ⟨h5, h6, h7⟩, h8, h9, h10⟩
    · exact ⟨h1, h2, h3, h4, ⟨h5, h6, h7⟩, h8, h9, h10⟩
    · exact ⟨h1, h2, h3, h4, ⟨h5, h6, h7⟩, h8, h9, k⟩
    · exact ⟨h1, h2, h3, h4, ⟨h5, h6, h7⟩, k, h9, h10⟩
    · exact ⟨k, h2, h3, h4, ⟨h5, h6, h7⟩, h8, h9, h10⟩
    · refine ⟨h1, h2, h3, h4, ⟨?_, h6, h7⟩, h8, h9, h10⟩
      rcases k with rfl | k
      · exact h5
      · exact k
    · exact ⟨h1, k, l, h4, ⟨h5, h6, h7⟩, h8, h9, h10⟩
    · exact ⟨h1, h2, h3, h4, ⟨h5, h6, h7⟩, h8, h9, h10⟩
    · exact ⟨h1, h2, h3, h4, ⟨h5, k, h7⟩, h8, h9, h10⟩
    · exact ⟨h1, h2, h3, h4, ⟨h5, h6, h7⟩, h8, k, h10⟩
    · exact ⟨h1, h2, h3, h4, ⟨h5, h6, k⟩, h8, h9, h10⟩
  · unfold InRange inInt
    simp only [init]
    decide

/-- `-a 600,400` is put in order and requests the location. -/
example : ∃ p, Parses lib0 [b!"sat_skymap", b!"default.tle", b!"-l10,20", b!"-a600,400"] p ∧ p.altMin = 400 ∧ p.altMax = 600 ∧
    p.geoloc = true := by
  obtain ⟨p, h1, h2⟩ := done_of_check (x := steps lib0 [b!"sat_skymap", b!"default.tle", b!"-l10,20", b!"-a600,400"] 4 init)
    (P := fun p => decide (p.altMin = 400 ∧ p.altMax = 600 ∧ p.geoloc = true)) (by decide +kernel)
  exact ⟨p, ⟨4, h1⟩, of_decide_eq_true h2⟩

/-- **C19** fails for numbers beyond the range of `int`: `-s 4294992840` asks for satellite 25544, because `strtol`'s `long` is stored in an
`int`. -/
theorem C19_wrap_violated (L : Lib) : ∃ p, Parses L [b!"sat_skymap", b!"default.tle", b!"-s4294992840"] p ∧ p.noradN = 25544 := by
  refine ⟨_, ⟨3, rfl⟩, ?_⟩
  change noradArg b!"4294992840" = 25544
  decide +kernel

/-- **C87** has no lower bound on the longitude beyond one turn: `-l 10,-400` gives a longitude of -40 degrees. -/
example : ∃ p, Parses lib0 [b!"sat_skymap", b!"default.tle", b!"-l10,-400"] p ∧ p.lon = -40 := by
  obtain ⟨p, h1, h2⟩ := done_of_check (x := steps lib0 [b!"sat_skymap", b!"default.tle", b!"-l10,-400"] 3 init)
    (P := fun p => decide (p.lon = -40)) (by decide +kernel)
  exact ⟨p, ⟨3, h1⟩, of_decide_eq_true h2⟩

end SatSky.Props
