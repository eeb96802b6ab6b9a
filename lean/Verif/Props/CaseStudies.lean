import Verif.Spec.CaseStudies
import Verif.Props.Scripts
import Verif.Props.FieldPlotMore
import Verif.Props.RunOuts
import Verif.Props.SlopeText
/-
  C104: the two case studies.
-/
set_option linter.unusedSectionVars false
namespace PyFlowGo
open Spec

section
variable {pf : List Char → Option ℝ}

theorem minList_iff (xs : List ℝ) (m : ℝ) : minList xs = .ok m ↔ Lowest xs m := by
  unfold Lowest
  cases xs with
  | nil => simp [minList]
  | cons a rest =>
    have key : ∀ (l : List ℝ) (b : ℝ), (l.foldl pyMin b ∈ b :: l) ∧ ∀ x ∈ b :: l, l.foldl pyMin b ≤ x := by
      intro l
      induction l with
      | nil => intro b; simp
      | cons c l ih =>
        intro b
        rw [List.foldl_cons]
        obtain ⟨h1, h2⟩ := ih (pyMin b c)
        have hb : l.foldl pyMin (pyMin b c) ≤ min b c := by
          rw [← pyMin_real]; exact h2 _ (by simp)
        refine ⟨?_, fun x hx => ?_⟩
        · rcases List.mem_cons.mp h1 with h | h
          · rw [h, pyMin_real]
            rcases min_choice b c with e | e <;> rw [e] <;> simp
          · simp [h]
        · rcases List.mem_cons.mp hx with rfl | hx
          · exact hb.trans (min_le_left _ _)
          · rcases List.mem_cons.mp hx with rfl | hx
            · exact hb.trans (min_le_right _ _)
            · exact h2 x (by simp [hx])
    obtain ⟨h1, h2⟩ := key rest a
    constructor
    · intro h
      cases h
      exact ⟨h1, h2⟩
    · rintro ⟨h3, h4⟩
      show Except.ok _ = _
      exact congrArg _ (le_antisymm (h2 _ h3) (h4 _ h1))

/-- What is read of one line. -/
theorem readVenusRow_iff (r : List (List Char × Option (List Char))) (p : VenusRow ℝ) :
    readVenusRow pf r = .ok p ↔ FieldLine pf r p.field ∧ dictFloat pf r "effective_temperature_snyder" = .ok p.snyderTemperature ∧
      dictFloat pf r "flowgofluxsnyderheat" = .ok p.snyder := by
  unfold readVenusRow
  simp only [bind_ok_iff, pure_ok_iff, readFieldRow_iff]
  constructor
  · rintro ⟨f, hf, a, ha, b, hb, rfl⟩
    exact ⟨hf, ha, hb⟩
  · rintro ⟨hf, ha, hb⟩
    exact ⟨_, hf, _, ha, _, hb, rfl⟩

theorem venusCurves_unique {lines : List (List (List Char × Option (List Char)))} {c d : VenusCurves ℝ} (hc : VenusCurvesIn pf lines c)
    (hd : VenusCurvesIn pf lines d) : c = d := by
  have e1 := curveIn_unique hc.distance hd.distance
  have e2 := curveIn_unique hc.temperature hd.temperature
  have e3 := curveIn_unique hc.velocity hd.velocity
  have e4 := curveIn_unique hc.viscosity hd.viscosity
  have e5 := curveIn_unique hc.yieldStrength hd.yieldStrength
  have e6 := curveIn_unique hc.width hd.width
  have e7 := curveIn_unique hc.crystal hd.crystal
  have e8 := curveIn_unique hc.snyder hd.snyder
  have e9 := curveIn_unique hc.convection hd.convection
  have e10 := curveIn_unique hc.conduction hd.conduction
  have e11 := curveIn_unique hc.radiation hd.radiation
  have e12 := curveIn_unique hc.snyderTemperature hd.snyderTemperature
  have e13 := curveIn_unique hc.cover hd.cover
  have e14 := curveIn_unique hc.crustTemperature hd.crustTemperature
  have e15 := curveIn_unique hc.radiationTemperature hd.radiationTemperature
  have e16 := curveIn_unique hc.surfaceTemperature hd.surfaceTemperature
  have e17 := curveIn_unique hc.slope hd.slope
  cases c; cases d
  simp only at e1 e2 e3 e4 e5 e6 e7 e8 e9 e10 e11 e12 e13 e14 e15 e16 e17
  subst_vars
  rfl

theorem venus_of_rows {text : List Char} {lines : List (List (List Char × Option (List Char)))} (hd : dictRead ',' text = .ok lines)
    (hrows : ∃ rows, lines.mapM (readVenusRow pf) = .ok rows) (hl2 : 2 ≤ lines.length) : ∃ c, venusResult pf text = .ok c := by
  have hdeg : ∀ rows : List (VenusRow ℝ), rows.mapM (fun r => degrees r.field.slope) = .ok (rows.map fun r => inDegrees r.field.slope) := fun rows =>
    mapM_eq_map (fun r : VenusRow ℝ => degrees r.field.slope) (fun r => inDegrees r.field.slope) rows (fun r _ => degrees_real r.field.slope)
  obtain ⟨rows, hrows⟩ := hrows
  have hlen := ((mapM_ok_iff _ _ _).mp hrows).length_eq
  have hdist : 2 ≤ (rows.map (·.field.distance)).length := by rw [List.length_map]; omega
  have hmax : ∃ m, maxList (rows.map (·.field.distance)) = .ok m := by
    unfold maxList
    cases hr : rows.map (·.field.distance) with
    | nil => rw [hr] at hdist; simp at hdist
    | cons a l => exact ⟨_, rfl⟩
  obtain ⟨m, hm⟩ := hmax
  have hget : listGet (rows.map (·.field.distance)) 1 = .ok ((rows.map (·.field.distance))[1]'(by omega)) := by
    rw [listGet_ok_iff]; exact List.getElem?_eq_getElem (by omega)
  unfold venusResult
  rw [hd, ok_bind, hrows, ok_bind]
  dsimp only
  rw [hm, ok_bind, hget, ok_bind, hdeg, ok_bind]
  exact ⟨_, rfl⟩

/-- **C104**. The Venus script can draw a result exactly when it has at least two lines, and all of its lines have a number in each
    of the twenty-two columns; the curves then show all lines, with the temperatures of the file. -/
theorem C104_venus_curves_of_a_text (text : List Char) (c : VenusCurves ℝ) :
    venusResult pf text = .ok c ↔ ∃ lines, dictRead ',' text = .ok lines ∧ 2 ≤ lines.length ∧ VenusCurvesIn pf lines c := by
  have hdeg : ∀ rows : List (VenusRow ℝ), rows.mapM (fun r => degrees r.field.slope) = .ok (rows.map fun r => inDegrees r.field.slope) := fun rows =>
    mapM_eq_map (fun r : VenusRow ℝ => degrees r.field.slope) (fun r => inDegrees r.field.slope) rows (fun r _ => degrees_real r.field.slope)
  have fwd : ∀ c, venusResult pf text = .ok c → ∃ lines, dictRead ',' text = .ok lines ∧ 2 ≤ lines.length ∧ VenusCurvesIn pf lines c := by
    intro c h
    unfold venusResult at h
    obtain ⟨lines, hd, h⟩ := bind_ok_iff.mp h
    simp only [bind_ok_iff, hdeg, Except.ok.injEq, exists_eq_left', mapM_ok_iff, pure_ok_iff] at h
    obtain ⟨rows, hrows, m, hm, x1, hx1, rfl⟩ := h
    have hread := hrows.imp fun a b h => (readVenusRow_iff (pf := pf) a b).mp h
    have hlen : lines.length = rows.length := hread.length_eq
    have hl2 : 2 ≤ lines.length := by
      rw [listGet_ok_iff, List.getElem?_eq_some_iff] at hx1
      obtain ⟨hx1, _⟩ := hx1
      rw [List.length_map] at hx1
      omega
    have C : ∀ (name : String) (f : ℝ → ℝ) (g : VenusRow ℝ → ℝ), (∀ r p, (FieldLine pf r p.field ∧
        dictFloat pf r "effective_temperature_snyder" = .ok p.snyderTemperature ∧ dictFloat pf r "flowgofluxsnyderheat" = .ok p.snyder) →
        ∃ x, dictFloat pf r name = .ok x ∧ g p = f x) → CurveIn pf lines name f (rows.map g) := by
      intro name f g hg
      unfold CurveIn
      rw [List.forall₂_map_right_iff]
      exact hread.imp fun a b hab => hg a b hab
    exact ⟨lines, hd, hl2,
      { distance := C _ _ _ fun r p hp => ⟨_, hp.1.distance, rfl⟩
        temperature := C _ _ _ fun r p hp => ⟨_, hp.1.temperature, rfl⟩
        velocity := C _ _ _ fun r p hp => ⟨_, hp.1.velocity, rfl⟩
        viscosity := C _ _ _ fun r p hp => ⟨_, hp.1.viscosity, rfl⟩
        yieldStrength := C _ _ _ fun r p hp => ⟨_, hp.1.yieldStrength, rfl⟩
        width := C _ _ _ fun r p hp => ⟨_, hp.1.width, rfl⟩
        crystal := C _ _ _ fun r p hp => ⟨_, hp.1.crystal, rfl⟩
        convection := C _ _ _ fun r p hp => ⟨_, hp.1.convection, rfl⟩
        conduction := C _ _ _ fun r p hp => ⟨_, hp.1.conduction, rfl⟩
        radiation := C _ _ _ fun r p hp => ⟨_, hp.1.radiation, rfl⟩
        snyder := C _ _ _ fun r p hp => ⟨_, hp.2.2, rfl⟩
        cover := C _ _ _ fun r p hp => ⟨_, hp.1.cover, rfl⟩
        crustTemperature := C _ _ _ fun r p hp => ⟨_, hp.1.crustTemperature, rfl⟩
        radiationTemperature := C _ _ _ fun r p hp => ⟨_, hp.1.radiationTemperature, rfl⟩
        surfaceTemperature := C _ _ _ fun r p hp => ⟨_, hp.1.surfaceTemperature, rfl⟩
        snyderTemperature := C _ _ _ fun r p hp => ⟨_, hp.2.1, rfl⟩
        slope := C _ _ _ fun r p hp => ⟨_, hp.1.slope, rfl⟩
        readable := fun name hn line hl => by
          obtain ⟨i, hi, rfl⟩ := List.getElem_of_mem hl
          obtain ⟨hlen, hg⟩ := List.forall₂_iff_get.mp hread
          obtain ⟨g1, g2, g3⟩ := hg i hi (by omega)
          rcases List.mem_append.mp hn with hn | hn
          · exact fieldLine_all pf g1 name hn
          · simp only [List.mem_cons, List.not_mem_nil, or_false] at hn
            rcases hn with rfl | rfl
            · exact ⟨_, g2⟩
            · exact ⟨_, g3⟩ }⟩
  refine ⟨fwd c, ?_⟩
  rintro ⟨lines, hd, hl2, hc⟩
  have hex : ∃ c', venusResult pf text = .ok c' := venus_of_rows hd ((mapM_exists (readVenusRow pf) lines).mpr fun line hl => by
      obtain ⟨p, hp⟩ := fieldLine_of_all pf fun name hn => hc.readable name (List.mem_append_left _ hn) line hl
      obtain ⟨a, ha⟩ := hc.readable "effective_temperature_snyder" (by decide) line hl
      obtain ⟨b, hb⟩ := hc.readable "flowgofluxsnyderheat" (by decide) line hl
      exact ⟨⟨p, a, b⟩, (readVenusRow_iff line _).mpr ⟨hp, ha, hb⟩⟩) hl2
  obtain ⟨c', hc'⟩ := hex
  obtain ⟨lines', hd', _, hcv⟩ := fwd c' hc'
  rw [hd, Except.ok.injEq] at hd'
  subst hd'
  rw [hc', venusCurves_unique hc hcv]

theorem venusProfile_iff (lines : List (List (List Char))) (samples : List (ℝ × ℝ)) :
    venusProfile pf lines = .ok samples ↔ SlopeSamples pf lines samples := by
  unfold venusProfile SlopeSamples
  simp only [mapM_ok_iff, bind_ok_iff, pure_ok_iff, floatField_ok_iff]
  constructor
  · intro h
    exact h.imp fun l p ⟨a, ha, b, hb, e⟩ => by rw [← e]; exact ⟨hb, ha⟩
  · intro h
    exact h.imp fun l p ⟨hb, ha⟩ => ⟨_, ha, _, hb, rfl⟩

theorem fullRows_iff (lines : List (List (List Char))) (samples : List (ℝ × ℝ × ℝ)) :
    fullRows pf lines = .ok samples ↔ FullSamples pf lines samples := by
  unfold fullRows FullSamples ProfileSamples
  simp only [mapM_ok_iff, bind_ok_iff, pure_ok_iff, floatField_ok_iff]
  constructor
  · intro h
    refine ⟨h.imp fun l p ⟨a, ha, b, hb, c, hc, _, _, _, _, e⟩ => by rw [← e]; exact ⟨hb, ha, hc⟩, fun l hl i hi => ?_⟩
    obtain ⟨j, hj, rfl⟩ := List.getElem_of_mem hl
    obtain ⟨hlen, hg⟩ := List.forall₂_iff_get.mp h
    obtain ⟨_, _, _, _, _, _, u, ⟨s, hs, hu⟩, v, ⟨t, ht, hv⟩, _⟩ := hg j hj (by omega)
    have : i = 0 ∨ i = 1 := by omega
    rcases this with rfl | rfl
    · exact ⟨s, u, hs, hu⟩
    · exact ⟨t, v, ht, hv⟩
  · rintro ⟨h, hl⟩
    rw [List.forall₂_iff_get] at h ⊢
    refine ⟨h.1, fun j h1 h2 => ?_⟩
    obtain ⟨hb, ha, hc⟩ := h.2 j h1 h2
    obtain ⟨s, u, hs, hu⟩ := hl _ (List.getElem_mem h1) 0 (by omega)
    obtain ⟨t, v, ht, hv⟩ := hl _ (List.getElem_mem h1) 1 (by omega)
    exact ⟨_, ha, _, hb, _, hc, _, ⟨s, hs, hu⟩, _, ⟨t, ht, hv⟩, rfl⟩

end

theorem venusLoop_iff (F : TextFormat ℝ) (disk : List (String × List Char)) (names : List String) (cs : List (List Char × VenusCurves ℝ)) :
    venusLoop F disk names = .ok cs ↔ List.Forall₂ (fun name lc => lc.1 = venusLabel name ∧ VenusDrawn F disk name lc.2) names cs := by
  have D : ∀ name c, withFile F disk name (venusResult F.float) = .ok c ↔ VenusDrawn F disk name c := by
    intro name c
    rw [withFile_iff]
    constructor
    · rintro ⟨text, h1, h2⟩
      obtain ⟨lines, a1, a2, a3⟩ := (C104_venus_curves_of_a_text _ _).mp h2
      exact ⟨text, lines, h1, a1, a2, a3⟩
    · rintro ⟨text, lines, h1, a1, a2, a3⟩
      exact ⟨text, h1, (C104_venus_curves_of_a_text _ _).mpr ⟨lines, a1, a2, a3⟩⟩
  induction names generalizing cs with
  | nil =>
    rw [venusLoop]
    constructor
    · intro h; cases h; exact .nil
    · intro h; cases h; rfl
  | cons name rest ih =>
    rw [venusLoop]
    simp only [bind_ok_iff, pure_ok_iff, D, ih]
    constructor
    · rintro ⟨c, hc, cs', hcs, rfl⟩
      exact .cons ⟨rfl, hc⟩ hcs
    · intro h
      cases h with
      | @cons _ lc _ cs' hab hr =>
        exact ⟨lc.2, hab.2, cs', hr, by rw [← hab.1]⟩

theorem maunaUluLoop_iff (F : TextFormat ℝ) (disk : List (String × List Char)) (names : List String) (cs : List (List Char × FieldCurves ℝ)) :
    maunaUluLoop F disk names = .ok cs ↔ List.Forall₂ (fun name lc => lc.1 = maunaUluLabel name ∧ FieldDrawn F disk name lc.2) names cs := by
  have D : ∀ name c, withFile F disk name (fieldResult F.float) = .ok c ↔ FieldDrawn F disk name c := by
    intro name c
    rw [withFile_iff]
    constructor
    · rintro ⟨text, h1, h2⟩
      obtain ⟨lines, a1, a2, a3⟩ := (C93_curves_of_a_text _ _).mp h2
      exact ⟨text, lines, h1, a1, a2, a3⟩
    · rintro ⟨text, lines, h1, a1, a2, a3⟩
      exact ⟨text, h1, (C93_curves_of_a_text _ _).mpr ⟨lines, a1, a2, a3⟩⟩
  induction names generalizing cs with
  | nil =>
    rw [maunaUluLoop]
    constructor
    · intro h; cases h; exact .nil
    · intro h; cases h; rfl
  | cons name rest ih =>
    rw [maunaUluLoop]
    simp only [bind_ok_iff, pure_ok_iff, D, ih]
    constructor
    · rintro ⟨c, hc, cs', hcs, rfl⟩
      exact .cons ⟨rfl, hc⟩ hcs
    · intro h
      cases h with
      | @cons _ lc _ cs' hab hr =>
        exact ⟨lc.2, hab.2, cs', hr, by rw [← hab.1]⟩

theorem fieldTable_iff (F : TextFormat ℝ) (disk : List (String × List Char)) (path : String) (delimiter : Char) (columns : List String)
    (table : List (List ℝ)) :
    withFile F disk path (fieldTable F.float delimiter columns) = .ok table ↔ TableHas F disk path delimiter columns table := by
  rw [withFile_iff]
  unfold TableHas fieldTable
  simp only [bind_ok_iff, mapM_ok_iff]
  constructor
  · rintro ⟨text, h1, lines, h2, h3⟩
    exact ⟨text, lines, h1, h2, h3⟩
  · rintro ⟨text, lines, h1, h2, h3⟩
    exact ⟨text, h1, lines, h2, h3⟩

/-- **C104**, the Venus script: it ends normally exactly when the run does, the slope profile can be read, and the file of the run's
    name and the other result can be drawn; the marks of the run-out take their heights from the *other* result. -/
theorem C104_venus_figure (F : TextFormat ℝ) (grid : List ℝ) (fuel : ℕ) (jsonFile folder other slopeFile : String)
    (disk d : List (String × List Char)) (fig : VenusFigure ℝ) :
    venusScript grid fuel F jsonFile folder other slopeFile disk = some (.ok fig, d) ↔
      ∃ name profile own c, runAndName grid fuel F jsonFile folder disk = some (.ok name, d) ∧
        lookup d (F.canon slopeFile) = some profile ∧ SlopeSamples F.float (dataLines profile) fig.profile ∧
        fig.curves = [(venusLabel name, own), (venusLabel other, c)] ∧ VenusDrawn F d name own ∧ VenusDrawn F d other c ∧
        Highest c.slope fig.markSlope ∧ Lowest c.temperature fig.markCold ∧ Highest c.temperature fig.markHot ∧
        Highest c.velocity fig.markVelocity := by
  unfold venusScript
  cases hr : runAndName grid fuel F jsonFile folder disk with
  | none =>
    constructor
    · intro h; cases h
    · rintro ⟨_, _, _, _, h, _⟩; cases h
  | some q =>
    obtain ⟨r, d'⟩ := q
    cases r with
    | error e =>
      constructor
      · intro h; cases h
      · rintro ⟨_, _, _, _, h, _⟩; cases h
    | ok name =>
      dsimp only
      rw [Option.some.injEq, Prod.mk.injEq]
      simp only [bind_ok_iff, withFile_iff, venusProfile_iff, venusLoop_iff]
      constructor
      · rintro ⟨⟨prof, ⟨text, h1, h2⟩, cs, hcs, h⟩, rfl⟩
        cases hcs with
        | @cons _ lc₁ _ _ h3 hcs =>
          cases hcs with
          | @cons _ lc₂ _ _ h4 hcs =>
            cases hcs
            obtain ⟨l₁, c₁⟩ := lc₁
            obtain ⟨l₂, c₂⟩ := lc₂
            obtain ⟨rfl, h3⟩ := h3
            obtain ⟨rfl, h4⟩ := h4
            rw [List.getLast?_cons_cons, List.getLast?_singleton] at h
            simp only [bind_ok_iff, pure_ok_iff, maxList_iff, minList_iff] at h
            obtain ⟨a, ha, b, hb, c, hc, e, he, rfl⟩ := h
            exact ⟨name, text, c₁, c₂, rfl, h1, h2, rfl, h3, h4, ha, hb, hc, he⟩
      · rintro ⟨name', text, c₁, c₂, hn, h1, h2, hcv, h3, h4, ha, hb, hc, he⟩
        rw [Option.some.injEq, Prod.mk.injEq, Except.ok.injEq] at hn
        obtain ⟨rfl, rfl⟩ := hn
        refine ⟨⟨fig.profile, ⟨text, h1, h2⟩, fig.curves, ?_, ?_⟩, rfl⟩
        · rw [hcv]
          exact .cons ⟨rfl, h3⟩ (.cons ⟨rfl, h4⟩ .nil)
        · rw [hcv, List.getLast?_cons_cons, List.getLast?_singleton]
          simp only [bind_ok_iff, pure_ok_iff, maxList_iff, minList_iff]
          exact ⟨_, ha, _, hb, _, hc, _, he, by rw [← hcv]⟩

/-- **C104**, the Mauna Ulu script: it ends normally exactly when the run does, the tables of field data have a number in all of their
    columns, and the file of the run's name and the other results can be drawn. -/
theorem C104_mauna_ulu_figure (F : TextFormat ℝ) (grid : List ℝ) (fuel : ℕ) (jsonFile folder : String) (others : List String)
    (glassFile crystalFile widthFile slopeFile : String) (disk d : List (String × List Char)) (fig : MaunaUluFigure ℝ) :
    maunaUluScript grid fuel F jsonFile folder others glassFile crystalFile widthFile slopeFile disk = some (.ok fig, d) ↔
      ∃ name profile, runAndName grid fuel F jsonFile folder disk = some (.ok name, d) ∧
        TableHas F d glassFile ';' ["Distance_surge (m)", "Temperature_surge C (glass method)", "Distance_pond (m)",
          "Temperature_pond C (glass method)", "Error_T_pond", "Error_T_surge"] fig.glass ∧
        TableHas F d crystalFile ';' ["Distance_surge (m)", "Xstals_surge", "Distance_pond (m)", "Xstals_pond", "Error"] fig.crystal ∧
        TableShows F d widthFile "Distance (m)" "Measured Width (m)" fig.width ∧
        lookup d (F.canon slopeFile) = some profile ∧ FullSamples F.float (dataLines profile) fig.profile ∧
        List.Forall₂ (fun name lc => lc.1 = maunaUluLabel name ∧ FieldDrawn F d name lc.2) (name :: others) fig.curves := by
  have T : ∀ (d : List (String × List Char)) (path x y : String) (pts : List (ℝ × ℝ)),
      withFile F d path (fieldPoints F.float x y) = .ok pts ↔ TableShows F d path x y pts := by
    intro d path x y pts
    rw [withFile_iff]
    unfold TableShows
    constructor
    · rintro ⟨text, h1, h2⟩
      obtain ⟨lines, h3, h4⟩ := (fieldPoints_iff _ _ _ _).mp h2
      exact ⟨text, lines, h1, h3, h4⟩
    · rintro ⟨text, lines, h1, h3, h4⟩
      exact ⟨text, h1, (fieldPoints_iff _ _ _ _).mpr ⟨lines, h3, h4⟩⟩
  unfold maunaUluScript
  cases hr : runAndName grid fuel F jsonFile folder disk with
  | none =>
    constructor
    · intro h; cases h
    · rintro ⟨_, _, h, _⟩; cases h
  | some q =>
    obtain ⟨r, d'⟩ := q
    cases r with
    | error e =>
      constructor
      · intro h; cases h
      · rintro ⟨_, _, h, _⟩; cases h
    | ok name =>
      dsimp only
      rw [Option.some.injEq, Prod.mk.injEq]
      simp only [bind_ok_iff, pure_ok_iff, fieldTable_iff, T, maunaUluLoop_iff]
      simp only [withFile_iff, fullRows_iff]
      constructor
      · rintro ⟨⟨g, hg, c, hc, w, hw, p, ⟨text, h1, h2⟩, cs, hcs, rfl⟩, rfl⟩
        exact ⟨name, text, rfl, hg, hc, hw, h1, h2, hcs⟩
      · rintro ⟨name', text, hn, hg, hc, hw, h1, h2, hcs⟩
        rw [Option.some.injEq, Prod.mk.injEq, Except.ok.injEq] at hn
        obtain ⟨rfl, rfl⟩ := hn
        exact ⟨⟨_, hg, _, hc, _, hw, _, ⟨text, h1, h2⟩, _, hcs, rfl⟩, rfl⟩

end PyFlowGo
